import Verif.Props.C71
import Verif.Props.C69
import Verif.Props.C108
import Verif.Props.C109

/-!
# C110: a program that is typed runs as one from a file

The bytes can be typed with `write`, the start address and the stack with `wreg`. And zeros at the end of a file make no
difference.
-/

namespace Verif
open Console Typed BS

namespace C110

/-- The machine after a register was written. -/
def put (name : Str) (v : Nat) (s : Machine) : Machine := (writeRegister (.name name) (.int v) s).2

theorem put_mem (name : Str) (v : Nat) (s : Machine) : (put name v s).mem = s.mem := by
  unfold put writeRegister delegateWriteRegister
  simp only
  split
  · split <;> rfl
  · split <;> rfl

theorem put_run (name : Str) (v : Nat) (s : Machine) : writeRegister (.name name) (.int v) s = (.ok (), put name v s) := by
  unfold put writeRegister delegateWriteRegister
  simp only
  split
  · split <;> rfl
  · split <;> rfl

/-- The machine after the start: the registers are written only if the addresses are in memory. -/
def loaded (f : Flat) (pc sp : Nat) (s : Machine) : Machine :=
  let s1 := if (f pc).isSome then put (c! "pc") pc s else s
  if (f ((sp : Int) - 4)).isSome then put (c! "sp") sp s1 else s1

theorem setIf_exact (b : Bool) (name : Str) (v : Word) (s : Machine) :
    setIf b (writeRegister (.name name) (.bs (ofBV v))) s = (.ok (), if b then put name v.toNat s else s) := by
  cases b with
  | false => rfl
  | true => exact put_run name v.toNat s

theorem reset_exact {s : Machine} {c : Core} (hs : Shows s c) (hm : MemOK s.mem) (h0 : Inside s.mem 0 4) (h4 : Inside s.mem 4 4) {pc sp : Nat}
    (hpc : c.read 4 4 = pc) (hsp : c.read 0 4 = sp) (h1 : pc < 2 ^ 32) (h2 : sp < 2 ^ 32) (out : List Output) :
    ∃ ls, resetSim ⟨s, out⟩ = (.ok (), ⟨loaded (flat s.mem) pc sp s, out ++ ls⟩) := by
  have e1 := readWord hs hm (x := 4) (by decide) h4
  rw [show c.read (BitVec.ofNat 32 4) 4 = pc from hpc] at e1
  have hp : (BitVec.ofNat 32 pc).toNat = pc := by rw [BitVec.toNat_ofNat, Nat.mod_eq_of_lt h1]
  have hq : (BitVec.ofNat 32 sp).toNat = sp := by rw [BitVec.toNat_ofNat, Nat.mod_eq_of_lt h2]
  have e2 := setIf_exact (flat s.mem pc).isSome (c! "pc") (BitVec.ofNat 32 pc) s
  rw [hp] at e2
  obtain ⟨s1, e2', m1, hs1⟩ := setIf_ok hs (k := 15) (by decide) idx_pc (flat s.mem pc).isSome (BitVec.ofNat 32 pc)
  have es : s1 = if (flat s.mem pc).isSome then put (c! "pc") pc s else s := by
    have := e2'.symm.trans e2
    cases this
    rfl
  have hc1 : (if (flat s.mem pc).isSome then c.set 15 (BitVec.ofNat 32 pc) else c).read (BitVec.ofNat 32 0) 4 = sp := by
    rw [← hsp]
    split <;> rfl
  have e3 := readWord hs1 (by rw [m1]; exact hm) (x := 0) (by decide) (by rw [m1]; exact h0)
  rw [hc1] at e3
  have e4 := setIf_exact (flat s.mem ((sp : Int) - 4)).isSome (c! "sp") (BitVec.ofNat 32 sp) s1
  rw [hq] at e4
  unfold resetSim
  rw [ConM.bind_ok (cpu_ok e1)]
  have f1 : mapped (ofBV (BitVec.ofNat 32 pc)).unsigned s = (.ok (flat s.mem pc).isSome, s) := by
    unfold mapped
    rw [mapped_iff hm]
    show (Except.ok (flat s.mem ((BitVec.ofNat 32 pc).toNat : Int)).isSome, s) = _
    rw [hp]
  rw [ConM.bind_ok (cpu_ok f1), ConM.bind_ok (cpu_ok e2'), ConM.bind_ok (cpu_ok e3)]
  have f2 : mapped (((ofBV (BitVec.ofNat 32 sp)).unsigned : Int) - 4) s1 = (.ok (flat s.mem ((sp : Int) - 4)).isSome, s1) := by
    unfold mapped
    rw [m1, mapped_iff hm]
    show (Except.ok (flat s.mem (((BitVec.ofNat 32 sp).toNat : Int) - 4)).isSome, s1) = _
    rw [hq]
  rw [ConM.bind_ok (cpu_ok f2), ConM.bind_ok (cpu_ok e4), es]
  exact ⟨_, rfl⟩

/-- The machine before the reset. -/
def memories (binary : List Nat) : Machine := { Machine.new with mem := [flashRegion binary, ramRegion (wordAt binary 0)] }

theorem start_exact (python : Python) {binary : List Nat} (hb : ∀ b ∈ binary, b < 256) (hl : binary.length ≤ 0x1fff8000) :
    ∃ o, ∀ lines, toolBody python binary lines ⟨Machine.new, []⟩ =
      session python lines [] ⟨loaded (image binary (wordAt binary 0)) (wordAt binary 4) (wordAt binary 0) (memories binary), o⟩ := by
  have hm := memory_ok hb hl (wordAt binary 0)
  have hf := flat_memory binary (wordAt binary 0)
  have hs := shows_new [flashRegion binary, ramRegion (wordAt binary 0)]
  have hin : ∀ x : Int, 0 ≤ x → x ≤ 4 → Inside [flashRegion binary, ramRegion (wordAt binary 0)] x 4 := by
    intro x hx0 hx4
    refine ⟨_, List.mem_cons_self, ?_⟩
    have : 0x10000 ≤ flashSize binary := by unfold flashSize; omega
    unfold flashRegion
    simp only
    omega
  rw [hf] at hs
  have h8 : ∀ x : Nat, x < 8 → image binary (wordAt binary 0) x = some (binary.getD x 0) := by
    intro x hx
    unfold image
    rw [if_pos (by unfold flashSize; omega)]
    rfl
  have hp : (blank (image binary (wordAt binary 0))).read 4 4 = wordAt binary 4 := by
    show (flatRead (image binary (wordAt binary 0)) ((4 : Nat) : Int) 4).getD 0 = _
    rw [flatRead_image h8 (by decide)]; rfl
  have hq : (blank (image binary (wordAt binary 0))).read 0 4 = wordAt binary 0 := by
    show (flatRead (image binary (wordAt binary 0)) ((0 : Nat) : Int) 4).getD 0 = _
    rw [flatRead_image h8 (by decide)]; rfl
  obtain ⟨ls, e⟩ := reset_exact hs hm (hin 0 (by decide) (by decide)) (hin 4 (by decide) (by decide)) hp hq (wordAt_lt hb 4) (wordAt_lt hb 0) []
  refine ⟨[] ++ ls, fun lines => ?_⟩
  unfold toolBody
  rw [ConM.bind_ok (cpu_ok (createSim_ok hb Machine.new rfl)), ConM.bind_ok e]
  simp only
  rw [hf]
  rfl

theorem run_fst {python : Python} {b b' : List Nat} {l l' : List Str}
    (h : (toolBody python b l ⟨Machine.new, []⟩).1 = (toolBody python b' l' ⟨Machine.new, []⟩).1) : (Console.run python b l).1 = (Console.run python b' l').1 := by
  unfold Console.run
  revert h
  generalize toolBody python b l ⟨Machine.new, []⟩ = x
  generalize toolBody python b' l' ⟨Machine.new, []⟩ = y
  obtain ⟨r, w⟩ := x
  obtain ⟨r', w'⟩ := y
  rintro h
  simp only at h
  subst h
  match r with
  | .ok () => rfl
  | .error .toolExit => rfl
  | .error .toolError => rfl
  | .error .systemExit => rfl
  | .error (.py e) => cases e <;> rfl

/-- Texts and the bytes that they are. -/
inductive Bytes : List Str → List Nat → Prop where
  | nil : Bytes [] []
  | cons {t : Str} {ts : List Str} {b : Nat} {bs : List Nat} : Number (plain t) b → b < 256 → Bytes ts bs → Bytes (t :: ts) (b :: bs)

theorem bytes_run {ts : List Str} {bs : List Nat} (h : Bytes ts bs) (w : World) : byteValues ts w = (.ok bs, w) := by
  induction h with
  | nil => rfl
  | @cons t ts b bs h1 h2 h3 ih =>
    unfold byteValues
    rw [ConM.bind_ok (C68.number_value h1 w), if_pos ⟨by omega, by omega⟩, ConM.bind_ok ih]
    rfl

theorem bytes_lt {ts : List Str} {bs : List Nat} (h : Bytes ts bs) : ∀ b ∈ bs, b < 256 := by
  induction h with
  | nil => simp
  | cons _ h2 _ ih => simpa using ⟨h2, ih⟩

theorem write_run (python : Python) {cmd name a : Str} {ts : List Str} {bs : List Nat} (hn : name ∈ C69.writeNames 1) (hc : Says cmd name (a :: ts))
    (ha : Number (plain a) 0) (hb : Bytes ts bs) (h0 : bs ≠ []) {s s' : Machine} (hw : writeMemoryBlock 0 bs s = (.ok (), s')) (o : List Output) :
    processCommand python cmd ⟨s, o⟩ = (.ok (), ⟨s', o⟩) := by
  rw [C67.command_runs python hc (C69.write_handler (n := 1) (by simp) hn)]
  apply C69.catching_ok
  show doWrite 8 (a :: ts) _ = _
  have ht : ts ≠ [] := by
    rintro rfl
    cases hb
    exact h0 rfl
  rw [doWrite, ConM.bind_ok (C68.number_value ha _), if_neg ht, ConM.bind_ok (bytes_run hb _)]
  exact cpu_ok hw

theorem wreg_run (python : Python) {cmd r a : Str} {rest : List Str} {v : Nat} (hc : Says cmd (c! "wreg") (r :: a :: rest)) (ha : Number (plain a) v)
    (s : Machine) (o : List Output) : processCommand python cmd ⟨s, o⟩ = (.ok (), ⟨put (small r) v s, o⟩) := by
  rw [C67.command_runs python hc (c := .wreg) (by decide)]
  apply C69.catching_ok
  show handleWriteReg (r :: a :: rest) _ = _
  rw [handleWriteReg, ConM.bind_ok (C68.number_value ha _)]
  exact cpu_ok (put_run _ v s)

theorem put_pc {s : Machine} (h : s.regs (some 15) = some 0) : put (c! "pc") 0 s = s := by
  have hr : registerIndex (.name (c! "pc")) = some 15 := by decide
  unfold put writeRegister delegateWriteRegister
  rw [hr]
  simp only [spsel_eq, Option.some.injEq]
  rw [if_neg (by decide), if_neg (by decide)]
  unfold setKey
  cases s with
  | mk regs mem =>
    simp only [Machine.mk.injEq, and_true]
    funext j
    by_cases hj : j = some 15
    · rw [if_pos hj, hj]
      exact h.symm
    · rw [if_neg hj]

theorem start_empty (python : Python) : ∃ o, ∀ lines, toolBody python [] lines ⟨Machine.new, []⟩ = session python lines [] ⟨memories [], o⟩ := by
  obtain ⟨o, h⟩ := start_exact python (binary := []) (by simp) (by simp)
  refine ⟨o, fun lines => ?_⟩
  rw [h lines]
  have e4 : wordAt [] 4 = 0 := rfl
  have e0 : wordAt [] 0 = 0 := rfl
  have : loaded (image [] (wordAt [] 0)) (wordAt [] 4) (wordAt [] 0) (memories []) = memories [] := by
    rw [e4, e0]
    unfold loaded
    rw [if_neg (c := (image [] 0 (((0 : Nat) : Int) - 4)).isSome = true)]
    · split
      · exact put_pc rfl
      · rfl
    · unfold image
      rw [if_neg (by omega), if_neg (by omega)]
      simp
  rw [this]

theorem putBytes_none (d : List Nat) : putBytes d 0 0 [] = d := by simp [putBytes]

theorem write_flash {binary : List Nat} (hl : binary.length ≤ 0x10000) (h0 : wordAt binary 0 ≤ 0x20008000) :
    writeMemoryBlock 0 binary (memories []) = (.ok (), memories binary) := by
  have hf : flashSize binary = 0x10000 := by unfold flashSize; omega
  have hf0 : flashSize [] = 0x10000 := rfl
  have hr : ramRegion (wordAt [] 0) = ramRegion (wordAt binary 0) := by
    have e0 : wordAt [] 0 = 0 := rfl
    have : ramSize (wordAt binary 0) = ramSize 0 := by unfold ramSize; omega
    unfold ramRegion
    rw [e0, this]
  have hh : (flashRegion []).has 0 = true := by
    rw [has_iff]
    unfold flashRegion
    rw [hf0]
    simp only
    omega
  have hfr : flashRegion [] = ⟨0, 0 + (0x10000 : Nat) - 1, List.replicate 0x10000 0⟩ := by
    unfold flashRegion
    rw [hf0, List.length_nil, putBytes_none]
  unfold memories writeMemoryBlock
  rw [hr]
  have hfind : (findMem [flashRegion [], ramRegion (wordAt binary 0)] 0) = some (flashRegion [], 0) := by
    unfold findMem
    rw [List.find?_cons_of_pos (p := fun x : Region => x.has 0) hh]
    rw [hfr]
    rfl
  simp only [hfind]
  have hup : updMem 0 binary.length binary [flashRegion [], ramRegion (wordAt binary 0)] = [flashRegion binary, ramRegion (wordAt binary 0)] := by
    unfold updMem
    rw [if_pos hh, hfr]
    unfold flashRegion
    rw [hf]
    rfl
  rw [hup]

/-- **C110.** A program that is typed — its bytes with `write`, its start and its stack with `wreg` — runs as one that is read from
a file: whatever is typed afterwards, the session ends in the same way and with the same machine. -/
theorem typed_program {python : Python} (hp : C109.Modest python) {binary : List Nat} (hl : binary.length ≤ 0x10000) (h0 : binary ≠ [])
    (hram : wordAt binary 0 ≤ 0x20008000)
    (hsp : 4 ≤ wordAt binary 0 ∧ wordAt binary 0 < 0x10004 ∨ 0x1fff8004 ≤ wordAt binary 0)
    (hpc : wordAt binary 4 < 0x10000 ∨ 0x1fff8000 ≤ wordAt binary 4 ∧ wordAt binary 4 < 0x20008000)
    {w name a : Str} {ts : List Str} (hn : name ∈ C69.writeNames 1) (hw : Says w name (a :: ts)) (ha : Number (plain a) 0) (ht : Bytes ts binary)
    {p rp ap : Str} {mp : List Str} (h1 : Says p (c! "wreg") (rp :: ap :: mp)) (hrp : small rp = c! "pc") (hap : Number (plain ap) (wordAt binary 4))
    {q rq aq : Str} {mq : List Str} (h2 : Says q (c! "wreg") (rq :: aq :: mq)) (hrq : small rq = c! "sp") (haq : Number (plain aq) (wordAt binary 0))
    (hs : ∀ l ∈ [w, p, q], ';' ∉ l) {lines : List Str} (hf : ∀ l ∈ lines.head?, C109.Filled l) :
    (Console.run python [] (w :: p :: q :: lines)).1 = (Console.run python binary lines).1 ∧
    (Console.run python [] (w :: p :: q :: lines)).2.cpu = (Console.run python binary lines).2.cpu := by
  have hb := bytes_lt ht
  obtain ⟨o, e1⟩ := start_empty python
  obtain ⟨o', e2⟩ := start_exact python hb (by omega)
  have hfs : flashSize binary = 0x10000 := by unfold flashSize; omega
  have hrs : ramSize (wordAt binary 0) = 0x10000 := by unfold ramSize; omega
  have hload : loaded (image binary (wordAt binary 0)) (wordAt binary 4) (wordAt binary 0) (memories binary) =
      put (c! "sp") (wordAt binary 0) (put (c! "pc") (wordAt binary 4) (memories binary)) := by
    have i1 : (image binary (wordAt binary 0) (wordAt binary 4 : Nat)).isSome = true := by
      unfold image
      rw [hfs, hrs]
      split
      · rfl
      · rw [if_pos (by omega)]; rfl
    have i2 : (image binary (wordAt binary 0) ((wordAt binary 0 : Nat) - 4 : Int)).isSome = true := by
      unfold image
      rw [hfs, hrs]
      split
      · rfl
      · rw [if_pos (by omega)]; rfl
    unfold loaded
    rw [if_pos i1, if_pos i2]
  have nonpy : ∀ {c n : Str} {l : List Str}, Says c n l → n.head? ≠ some '$' → C109.Named c := by
    rintro c n l ⟨b, h1, h2⟩ h3
    refine ⟨b, l, h1, fun hd => h3 ?_⟩
    rw [← h2]
    cases b with
    | nil => cases hd
    | cons x t => cases hd; rfl
  have hnd : ∀ n ∈ C69.writeNames 1, n.head? ≠ some '$' := by decide
  have hline := C109.one_per_line python hf (cs := [w, p, q]) (by
    intro c hc
    refine ⟨?_, hs c hc⟩
    simp only [List.mem_cons, List.not_mem_nil, or_false] at hc
    rcases hc with rfl | rfl | rfl
    · exact nonpy hw (hnd _ hn)
    · exact nonpy h1 (by decide)
    · exact nonpy h2 (by decide)) []
  have hrun : processCommands python [w, p, q] ⟨memories [], o⟩ =
      (.ok (), ⟨put (c! "sp") (wordAt binary 0) (put (c! "pc") (wordAt binary 4) (memories binary)), o⟩) := by
    unfold processCommands
    rw [ConM.bind_ok (write_run python hn hw ha ht h0 (write_flash hl hram) o)]
    unfold processCommands
    rw [ConM.bind_ok (wreg_run python h1 hap _ o), hrp]
    unfold processCommands
    rw [ConM.bind_ok (wreg_run python h2 haq _ o), hrq]
    rfl
  have e3 : toolBody python [] (w :: p :: q :: lines) ⟨Machine.new, []⟩ =
      session python lines [] ⟨put (c! "sp") (wordAt binary 0) (put (c! "pc") (wordAt binary 4) (memories binary)), o⟩ := by
    rw [e1, show w :: p :: q :: lines = [w, p, q] ++ lines from rfl, hline, ConM.bind_ok hrun]
  have e4 := e2 lines
  rw [hload] at e4
  obtain ⟨k1, k2⟩ := C109.same_cpu (C109.writes_session hp lines [])
    (put (c! "sp") (wordAt binary 0) (put (c! "pc") (wordAt binary 4) (memories binary))) o o'
  refine ⟨run_fst ?_, ?_⟩
  · rw [e3, e4]; exact k1
  · rw [C108.run_cpu, C108.run_cpu, e3, e4]
    exact k2

theorem getD_zeros (l : List Nat) (k i : Nat) : (l ++ List.replicate k 0).getD i 0 = l.getD i 0 := by
  rw [List.getD_eq_getElem?_getD, List.getD_eq_getElem?_getD]
  by_cases h : i < l.length
  · rw [List.getElem?_append_left h]
  · rw [List.getElem?_append_right (by omega), List.getElem?_eq_none (l := l) (by omega), List.getElem?_replicate]
    split <;> rfl

/-- **C110.** Zeros at the end of a file make no difference, as long as it is not longer than 64 KiB. -/
theorem padding (python : Python) {binary : List Nat} (hb : ∀ b ∈ binary, b < 256) {k : Nat} (hl : binary.length + k ≤ 0x10000) (lines : List Str) :
    Console.run python (binary ++ List.replicate k 0) lines = Console.run python binary lines := by
  have hb' : ∀ b ∈ binary ++ List.replicate k 0, b < 256 := by
    intro b h
    rcases List.mem_append.1 h with h | h
    · exact hb b h
    · rw [(List.mem_replicate.1 h).2]; decide
  have hw : ∀ i, wordAt (binary ++ List.replicate k 0) i = wordAt binary i := by
    intro i
    unfold wordAt
    simp only [getD_zeros]
  have hlen : (binary ++ List.replicate k 0).length = binary.length + k := by rw [List.length_append, List.length_replicate]
  have h1 : flashSize (binary ++ List.replicate k 0) = 0x10000 := by unfold flashSize; omega
  have h2 : flashSize binary = 0x10000 := by unfold flashSize; omega
  have hr : flashRegion (binary ++ List.replicate k 0) = flashRegion binary := by
    unfold flashRegion putBytes
    rw [h1, h2, hlen]
    simp only [Region.mk.injEq, true_and, List.take_zero, List.nil_append, List.drop_replicate, Nat.zero_add]
    rw [List.append_assoc, List.replicate_append_replicate, show k + (0x10000 - (binary.length + k)) = 0x10000 - binary.length by omega]
  have : createSim (binary ++ List.replicate k 0) Machine.new = createSim binary Machine.new := by
    rw [createSim_ok hb' _ rfl, createSim_ok hb _ rfl, hr, hw]
  have hc : cpu (createSim (binary ++ List.replicate k 0)) ⟨Machine.new, []⟩ = cpu (createSim binary) ⟨Machine.new, []⟩ := by
    unfold cpu
    simp only
    rw [this]
  unfold Console.run toolBody
  simp only [ConM.bind_def, hc]

theorem bytes_of : ∀ {ts : List Str} {bs : List Nat}, ts.length = bs.length →
    (∀ x ∈ ts.zip bs, unsignedNumber (plain x.1) = some x.2 ∧ x.2 < 256) → Bytes ts bs
  | [], [], _, _ => .nil
  | t :: ts, b :: bs, h, hx =>
    .cons (.plain (numeral_iff.1 (hx (t, b) (by simp)).1)) (hx (t, b) (by simp)).2
      (bytes_of (by simpa using h) fun x hm => hx x (by simp [hm]))
  | [], _ :: _, h, _ => by simp at h
  | _ :: _, [], h, _ => by simp at h

/-- The program of C71, typed and then run for two steps. -/
example : (Console.run C67.noPython [] [c! "wb 0 0 0x10 0 0x20 9 0 0 0 0x4B 0b11100", c! "wreg PC 9", c! "wreg sp 0x2000_1000", c! "s", c! "s"]).2.cpu =
    (Console.run C67.noPython C71.program [c! "s", c! "s"]).2.cpu :=
  (typed_program (python := C67.noPython) (fun _ => writes_pure _) (binary := C71.program) (by decide) (by decide) (by decide) (by decide) (by decide)
    (name := c! "wb") (a := c! "0") (ts := [c! "0", c! "0x10", c! "0", c! "0x20", c! "9", c! "0", c! "0", c! "0", c! "0x4B", c! "0b11100"])
    (by decide) ⟨c! "wb", wordsOf _, by decide⟩ (.plain ((numeral_iff (v := 0)).1 (by decide +kernel))) (bytes_of rfl (by decide +kernel))
    (rp := c! "PC") (ap := c! "9") (mp := []) ⟨c! "wreg", wordsOf _, by decide⟩ (by decide) (.plain (numeral_iff.1 (by decide +kernel)))
    (rq := c! "sp") (aq := c! "0x2000_1000") (mq := []) ⟨c! "wreg", wordsOf _, by decide⟩ (by decide) (.plain (numeral_iff.1 (by decide +kernel)))
    (by decide +kernel) (fun l hl => C109.filled_iff.2 (by cases hl; decide +kernel))).2

/-- The same program with two zeros after it. -/
example (lines : List Str) : Console.run C67.noPython [0x00, 0x10, 0x00, 0x20, 0x09, 0x00, 0x00, 0x00, 0x4b, 0x1c, 0, 0] lines =
    Console.run C67.noPython C71.program lines :=
  padding _ (binary := C71.program) (k := 2) (by decide) (by decide) lines

/-- A larger file makes the memory larger, so zeros beyond 64 KiB do make a difference. -/
theorem longer_file : flashRegion (List.replicate 0x10001 0) ≠ flashRegion [] := by
  intro h
  have := congrArg Region.stop h
  unfold flashRegion flashSize at this
  simp only [List.length_replicate, List.length_nil] at this
  omega

end C110
end Verif
