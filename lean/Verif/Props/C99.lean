import Verif.Props.C49to51
import Verif.Props.C70
import Verif.Props.C81

/-!
# C99: a copy loop copies
-/

namespace Verif
open Console Typed BS Thumb C70

namespace C99

/-- The routine, byte by byte: it copies r2 bytes from r1 to r0, one at a time and upwards,
and returns to its beginning through r7.

    ldrb r3, [r1]; strb r3, [r0]; adds r1, #1; adds r0, #1; subs r2, #1; beq end; bx r7; end: nop -/
def copyLoop : List Nat :=
  [0x0b, 0x78, 0x03, 0x70, 0x01, 0x31, 0x01, 0x30, 0x01, 0x3a, 0x00, 0xd0, 0x38, 0x47, 0x00, 0xbf]

/-- These bytes lie in memory from an address on. -/
def Lies (f : Flat) (x : Nat) (bs : List Nat) : Prop := ∀ j, j < bs.length → f ((x + j : Nat) : Int) = bs[j]?

/-- Every address of memory holds a byte. -/
def Full (mem : List Region) (f : Flat) : Prop := ∀ y, Inside mem y 1 → ∃ b, f y = some b ∧ b < 256

theorem full_flat {mem : List Region} (hm : MemOK mem) : Full mem (flat mem) := by
  intro y h
  obtain ⟨m, -, -, -, -, hb⟩ := find_inside hm (by decide) h
  obtain ⟨b, h1, -, h2⟩ := hb 0 (by decide)
  exact ⟨b, by simpa using h1, h2⟩

theorem inside_part {mem : List Region} {x : Int} {n : Nat} (h : Inside mem x n) {y : Int} {k : Nat} (h1 : x ≤ y) (h2 : y + k ≤ x + n) :
    Inside mem y k := by
  obtain ⟨m, hm, h3, h4⟩ := h
  exact ⟨m, hm, by omega, by omega⟩

theorem lies_write {f : Flat} {x : Nat} {bs : List Nat} (h : Lies f x bs) {y : Nat} {v : Int} (hy : y < x ∨ x + bs.length ≤ y) :
    Lies (flatWrite f y 1 v) x bs := by
  intro j hj
  unfold flatWrite
  rw [if_neg (by omega)]
  exact h j hj

theorem full_write {mem : List Region} {f : Flat} (h : Full mem f) (y : Int) (v : Int) : Full mem (flatWrite f y 1 v) := by
  intro z hz
  unfold flatWrite
  split
  · refine ⟨_, rfl, ?_⟩
    unfold byteOf
    omega
  · exact h z hz

theorem lies_halfword {f : Flat} {x : Nat} {bs : List Nat} (h : Lies f x bs) {j a b : Nat} (ha : bs[j]? = some a) (hb : bs[j + 1]? = some b) :
    flatRead f ((x + j : Nat) : Int) 2 = some (a + 256 * b) := by
  have h1 := h j (List.getElem?_eq_some_iff.1 ha).1
  have h2 := h (j + 1) (List.getElem?_eq_some_iff.1 hb).1
  rw [ha] at h1
  rw [hb] at h2
  have e : ((x + j : Nat) : Int) + 1 = ((x + (j + 1) : Nat) : Int) := by omega
  simp only [flatRead, h1, e, h2, Nat.mul_zero, Nat.add_zero]

/-- An instruction of a program that lies in memory, the next one is an instruction too. -/
theorem stands_in {mem : List Region} {c : Core} {x : Nat} {bs : List Nat} (h : Lies c.mem x bs) (hin : Inside mem x bs.length) (hx : x % 2 = 0)
    {j : Nat} (hpc : (c.reg 15).toNat = x + j) (hj : j % 2 = 0) {e e' : Enc} {a b a' b' : Nat} (ha : bs[j]? = some a) (hb : bs[j + 1]? = some b)
    (ha' : bs[j + 2]? = some a') (hb' : bs[j + 3]? = some b') (he : e ∈ encodings) (hl : e.pat.length = 16) (hi : e.Is (a + 256 * b))
    (he' : e' ∈ encodings) (hl' : e'.pat.length = 16) (hi' : e'.Is (a' + 256 * b')) (hw : ¬ Wrong e (field e.pat (a + 256 * b)))
    (hp : (e.act (field e.pat (a + 256 * b))).NoPc) (hf : C72.Fine mem c (e.act (field e.pat (a + 256 * b)))) :
    Stands mem c e (a + 256 * b) := by
  have hat : at_ c = ((x + j : Nat) : Int) := by
    unfold at_
    omega
  have hlen := (List.getElem?_eq_some_iff.1 hb').1
  have h2 := lies_halfword h (j := j + 2) ha' hb'
  refine ⟨he, hi, ?_, ?_, hw, hp, hf, fun _ => .short (h := a' + 256 * b') (e := e') ?_ ?_ he' hl' hi'⟩
  · rw [hat, hl]
    exact inside_part hin (by omega) (by omega)
  · rw [hat, hl]
    exact lies_halfword h ha hb
  · rw [hat]
    exact inside_part hin (by omega) (by omega)
  · rw [hat, show ((x + j : Nat) : Int) + 2 = ((x + (j + 2) : Nat) : Int) by omega]
    exact h2

theorem goes_trans {mem : List Region} {n k : Nat} {c d e : Core} (h : Goes mem n c d) (h' : Goes mem k d e) : Goes mem (n + k) c e := by
  induction h with
  | done => simpa using h'
  | more h1 _ ih =>
    rw [Nat.add_right_comm]
    exact .more h1 (ih h')

theorem goes_one {mem : List Region} {c : Core} {e : Enc} {w : Nat} (h : Stands mem c e w) {act : Act} (ha : e.act (field e.pat w) = act)
    (hl : e.pat.length = 16) : Goes mem 1 c (act.run 2 c) := by
  have := Goes.more h .done
  rw [ha, hl] at this
  exact this

/-- After an instruction that changes one low register, perhaps flags, and goes on. -/
structure Stepped (c c' : Core) (k : Nat) : Prop where
  pc : c'.reg 15 = c.reg 15 + 2#32
  others : ∀ j : Nat, j < 8 → j ≠ k → c'.reg j = c.reg j

theorem next_reg (c : Core) (n : Nat) {j : Int} (h : j ≠ 15) : (c.next n).reg j = c.reg j := by
  unfold Core.next
  rw [core_reg_set, if_neg (by omega)]

theorem next_pc (c : Core) (n : Nat) : (c.next n).reg 15 = c.reg 15 + BitVec.ofNat 32 n := by
  unfold Core.next
  rw [core_reg_set, if_pos (.inl rfl)]
  exact keepBits_plain (d := 15) (by decide) (by decide) _

theorem set_low (c : Core) {k : Nat} (hk : k < 8) (v : Word) : (c.set k v).reg k = v := by
  rw [core_reg_set, if_pos (.inl rfl)]
  exact keepBits_plain (by omega) (by omega) _

theorem set_other (c : Core) {k : Nat} (hk : k < 8) {j : Int} (hj : j ≠ k) (v : Word) : (c.set k v).reg j = c.reg j := by
  rw [core_reg_set, if_neg (by omega)]

theorem flags_reg (c : Core) (on : Bool) (r : Word) (a b : Option Bool) {j : Int} (hj : j ≠ 16) : (c.flags on r a b).reg j = c.reg j := by
  unfold Core.flags
  split
  · rw [core_reg_set, if_neg (by omega)]
  · rfl

theorem flags_z (c : Core) (r : Word) (a b : Option Bool) : (c.flags true r a b).flag 30 = (r == 0#32) := by
  unfold Core.flags Core.flag
  rw [if_pos rfl, core_reg_set, if_pos (.inl rfl), show keepBits 16 _ = _ from keepBits_plain (d := 16) (by decide) (by decide) _, newFlags_bit]
  rfl

theorem flags_mem (c : Core) (on : Bool) (r : Word) (a b : Option Bool) : (c.flags on r a b).mem = c.mem := by
  unfold Core.flags
  split <;> rfl

/-- ADDS and SUBS with an immediate number and one register. -/
theorem addSub_run (c : Core) (sub : Bool) {k : Nat} (hk : k < 8) (imm : Word) {r : Word}
    (hr : C17.sum (c.reg k) (if sub then ~~~imm else imm) sub = r) : ∃ c', (Act.addSub sub false true k k (.imm imm)).run 2 c = c' ∧
      Stepped c c' k ∧ c'.reg k = r ∧ c'.flag 30 = (r == 0#32) ∧ c'.mem = c.mem := by
  subst hr
  refine ⟨_, rfl, ⟨?_, ?_⟩, ?_, ?_, ?_⟩ <;> simp only [Act.run, core_rd c (show k < 15 by omega), Src.val, core_result (show k < 15 by omega)]
  · rw [next_pc, set_other _ hk (by omega), flags_reg _ _ _ _ _ (by decide)]
  · intro j hj hjk
    rw [next_reg _ _ (by omega), set_other _ hk (by omega), flags_reg _ _ _ _ _ (by omega)]
  · rw [next_reg _ _ (by omega), set_low _ hk]
    rfl
  · unfold Core.flag
    rw [next_reg _ _ (by decide), set_other _ hk (by omega)]
    exact flags_z _ _ _ _
  · exact flags_mem _ _ _ _ _

theorem sum_one {x : Word} {n : Nat} (h : x.toNat = n) (hn : n + 1 < 2 ^ 31) : (C17.sum x (w32 1) false).toNat = n + 1 := by
  unfold C17.sum w32
  rw [BitVec.toNat_ofNat, h, BitVec.toNat_ofNat]
  simp
  omega

theorem sum_minus {x : Word} {n : Nat} (h : x.toNat = n + 1) : (C17.sum x (~~~w32 1) true).toNat = n := by
  have := x.isLt
  unfold C17.sum w32
  rw [BitVec.toNat_ofNat, h]
  simp
  omega

theorem msb_small {x : Word} (h : x.toNat < 2 ^ 31) : x.msb = false := by
  rw [BitVec.msb_eq_decide]
  simpa using h

/-- The routine at `x` in front of an instruction, with what the registers hold. -/
structure At (mem : List Region) (c : Core) (x pc dst src n : Nat) : Prop where
  lies : Lies c.mem x copyLoop
  pc : (c.reg 15).toNat = pc
  r0 : (c.reg 0).toNat = dst
  r1 : (c.reg 1).toNat = src
  r2 : (c.reg 2).toNat = n
  r7 : (c.reg 7 &&& ~~~1#32).toNat = x
  full : Full mem c.mem

/-- Where the routine and what it copies lie. -/
structure Room (mem : List Region) (x dst src n : Nat) : Prop where
  even : x % 2 = 0
  code : Inside mem x 16
  top : x + 16 < 2 ^ 32
  from_ : ∀ j, j < n → Inside mem (src + j : Nat) 1
  to_ : ∀ j, j < n → Inside mem (dst + j : Nat) 1
  low : src + n < 2 ^ 31 ∧ dst + n < 2 ^ 31
  count : n < 2 ^ 31
  apart : ∀ j, j < n → dst + j < x ∨ x + 16 ≤ dst + j

theorem pc_next {c c' : Core} {p : Nat} (h : (c.reg 15).toNat = p) (hp : p + 2 < 2 ^ 32) (h' : c'.reg 15 = c.reg 15 + 2#32) :
    (c'.reg 15).toNat = p + 2 := by
  rw [h', BitVec.toNat_add, h]
  simp
  omega

/-- LDRB without offset. -/
theorem loadByte_run (c : Core) {t n : Nat} (ht : t < 8) (hn : n < 8) {b : Nat} (hb : c.mem ((c.reg n).toNat : Int) = some b) (hlt : b < 256) :
    ∃ c', (Act.load 8 false t n (.imm (w32 0))).run 2 c = c' ∧ Stepped c c' t ∧ (c'.reg t).toNat = b ∧ c'.mem = c.mem := by
  have hz : c.reg n + w32 0 = c.reg n := by simp [w32]
  have hread : c.read (c.reg n) 1 = b := by
    unfold Core.read
    simp [flatRead, hb]
  refine ⟨_, rfl, ⟨?_, ?_⟩, ?_, ?_⟩ <;>
    simp only [Act.run, core_rd c (show n < 15 by omega), Off.val, core_result (show t < 15 by omega), hz, Nat.reduceDiv, hread]
  · rw [next_pc, set_other _ ht (by omega)]
  · intro j hj hjk
    rw [next_reg _ _ (by omega), set_other _ ht (by omega)]
  · rw [next_reg _ _ (by omega), set_low _ ht]
    simp [extended]
    omega
  · rfl

/-- STRB without offset. -/
theorem storeByte_run (c : Core) {t n : Nat} (ht : t < 8) (hn : n < 8) :
    ∃ c', (Act.store 8 t n (.imm (w32 0))).run 2 c = c' ∧ Stepped c c' 8 ∧
      c'.mem = flatWrite c.mem ((c.reg n).toNat : Int) 1 ((c.reg t).toNat : Int) := by
  have hz : c.reg n + w32 0 = c.reg n := by simp [w32]
  refine ⟨_, rfl, ⟨?_, ?_⟩, ?_⟩ <;>
    simp only [Act.run, core_rd c (show n < 15 by omega), core_rd c (show t < 15 by omega), Off.val, hz, Nat.reduceDiv]
  · rw [next_pc]
    rfl
  · intro j hj hjk
    rw [next_reg _ _ (by omega)]
    rfl
  · rfl

/-- The first five instructions: a byte is copied, the registers go on, Z is set after the
last byte. -/
theorem body {mem : List Region} {c : Core} {x dst src n : Nat} (h : At mem c x x dst src (n + 1)) (hr : Room mem x dst src (n + 1)) :
    ∃ c', Goes mem 5 c c' ∧ At mem c' x (x + 10) (dst + 1) (src + 1) n ∧ c'.flag 30 = decide (n = 0) ∧
      ∀ y : Int, c'.mem y = if y = dst then c.mem src else c.mem y := by
  obtain ⟨hlies, hpc, h0, h1, h2, h7, hfull⟩ := h
  obtain ⟨heven, hcode, htop, hfrom, hto, ⟨hlow1, hlow2⟩, hcount, hapart⟩ := hr
  have hsrc : Inside mem src 1 := hfrom 0 (by omega)
  have hdst : Inside mem dst 1 := hto 0 (by omega)
  obtain ⟨b, hb, hb256⟩ := hfull src hsrc
  -- ldrb r3, [r1]
  obtain ⟨c1, e1, s1, v1, m1⟩ := loadByte_run c (t := 3) (n := 1) (by decide) (by decide) (b := b) (by rw [show c.reg ((1 : Nat) : Int) = c.reg 1 from rfl, h1]; exact hb) hb256
  have ha1 : Thumb.ldrbImm.act (field Thumb.ldrbImm.pat (0x0b + 256 * 0x78)) = .load 8 false 3 1 (.imm (w32 0)) := by decide +kernel
  have g1 : Goes mem 1 c c1 := by
    rw [← e1]
    refine goes_one (stands_in hlies hcode heven (j := 0) hpc (by decide) (a' := 0x03) (b' := 0x70) (e' := Thumb.strbImm) rfl rfl rfl rfl
      (by simp [encodings]) rfl ⟨by decide, by decide, by decide⟩ (by simp [encodings]) rfl ⟨by decide, by decide, by decide⟩ (not_wrong (by decide) _) ?_ ?_) ha1 rfl
    · rw [ha1]
      exact ⟨by decide, by decide, trivial⟩
    · rw [ha1]
      show Inside mem (c.reg 1 + w32 0).toNat 1
      rw [show c.reg 1 + w32 0 = c.reg 1 by simp [w32], h1]
      exact hsrc
  have p1 := pc_next hpc (by omega) s1.pc
  -- strb r3, [r0]
  obtain ⟨c2, e2, s2, m2⟩ := storeByte_run c1 (t := 3) (n := 0) (by decide) (by decide)
  have q0 : (c1.reg 0).toNat = dst := by rw [show c1.reg 0 = c.reg 0 from s1.others 0 (by decide) (by decide), h0]
  have ha2 : Thumb.strbImm.act (field Thumb.strbImm.pat (0x03 + 256 * 0x70)) = .store 8 3 0 (.imm (w32 0)) := by decide +kernel
  have g2 : Goes mem 1 c1 c2 := by
    rw [← e2]
    refine goes_one (stands_in (by rw [m1]; exact hlies) hcode heven (j := 2) p1 (by decide) (a' := 0x01) (b' := 0x31) (e' := Thumb.addsImmT2) rfl rfl rfl rfl
      (by simp [encodings]) rfl ⟨by decide, by decide, by decide⟩ (by simp [encodings]) rfl ⟨by decide, by decide, by decide⟩ (not_wrong (by decide) _) ?_ ?_) ha2 rfl
    · rw [ha2]
      exact ⟨by decide, by decide, trivial⟩
    · rw [ha2]
      show Inside mem (c1.reg 0 + w32 0).toNat 1
      rw [show c1.reg 0 + w32 0 = c1.reg 0 by simp [w32], q0]
      exact hdst
  have p2 := pc_next p1 (by omega) s2.pc
  rw [m1, show c1.reg ((0 : Nat) : Int) = c1.reg 0 from rfl, q0, show c1.reg ((3 : Nat) : Int) = c1.reg 3 from rfl, show (c1.reg 3).toNat = b from v1] at m2
  have l2 : Lies c2.mem x copyLoop := by
    rw [m2]
    exact lies_write hlies (show dst < x ∨ x + 16 ≤ dst from hapart 0 (by omega))
  have f2 : Full mem c2.mem := by
    rw [m2]
    exact full_write hfull _ _
  have mem2 : ∀ y : Int, c2.mem y = if y = dst then c.mem src else c.mem y := by
    intro y
    rw [m2]
    unfold flatWrite
    by_cases hy : y = dst
    · rw [if_pos (by omega), if_pos hy, hb, show y - (dst : Int) = 0 by omega]
      unfold byteOf
      simp
      omega
    · rw [if_neg (by omega), if_neg hy]
  -- adds r1, #1
  have r1 : (c2.reg 1).toNat = src := by rw [show c2.reg 1 = c1.reg 1 from s2.others 1 (by decide) (by decide), show c1.reg 1 = c.reg 1 from s1.others 1 (by decide) (by decide), h1]
  obtain ⟨c3, e3, s3, v3, -, m3⟩ := addSub_run c2 false (k := 1) (by decide) (w32 1) rfl
  have w3 := sum_one r1 (by omega)
  have ha3 : Thumb.addsImmT2.act (field Thumb.addsImmT2.pat (0x01 + 256 * 0x31)) = .addSub false false true 1 1 (.imm (w32 1)) := by decide +kernel
  have g3 : Goes mem 1 c2 c3 := by
    rw [← e3]
    refine goes_one (stands_in l2 hcode heven (j := 4) p2 (by decide) (a' := 0x01) (b' := 0x30) (e' := Thumb.addsImmT2) rfl rfl rfl rfl
      (by simp [encodings]) rfl ⟨by decide, by decide, by decide⟩ (by simp [encodings]) rfl ⟨by decide, by decide, by decide⟩ (not_wrong (by decide) _) ?_ ?_) ha3 rfl
    · rw [ha3]
      exact ⟨by decide, by decide, trivial⟩
    · rw [ha3]
      exact msb_small (by show (C17.sum (c2.reg 1) (w32 1) false).toNat < _; omega)
  have p3 := pc_next p2 (by omega) s3.pc
  -- adds r0, #1
  have r0 : (c3.reg 0).toNat = dst := by rw [show c3.reg 0 = c2.reg 0 from s3.others 0 (by decide) (by decide), show c2.reg 0 = c1.reg 0 from s2.others 0 (by decide) (by decide), q0]
  obtain ⟨c4, e4, s4, v4, -, m4⟩ := addSub_run c3 false (k := 0) (by decide) (w32 1) rfl
  have w4 := sum_one r0 (by omega)
  have ha4 : Thumb.addsImmT2.act (field Thumb.addsImmT2.pat (0x01 + 256 * 0x30)) = .addSub false false true 0 0 (.imm (w32 1)) := by decide +kernel
  have g4 : Goes mem 1 c3 c4 := by
    rw [← e4]
    refine goes_one (stands_in (by rw [m3]; exact l2) hcode heven (j := 6) p3 (by decide) (a' := 0x01) (b' := 0x3a) (e' := Thumb.subsImmT2) rfl rfl rfl rfl
      (by simp [encodings]) rfl ⟨by decide, by decide, by decide⟩ (by simp [encodings]) rfl ⟨by decide, by decide, by decide⟩ (not_wrong (by decide) _) ?_ ?_) ha4 rfl
    · rw [ha4]
      exact ⟨by decide, by decide, trivial⟩
    · rw [ha4]
      exact msb_small (by show (C17.sum (c3.reg 0) (w32 1) false).toNat < _; omega)
  have p4 := pc_next p3 (by omega) s4.pc
  -- subs r2, #1
  have low : ∀ j : Nat, j < 8 → j ≠ 0 → j ≠ 1 → j ≠ 3 → c4.reg j = c.reg j := fun j a b d e => by
    rw [s4.others j a b, s3.others j a d, s2.others j a (by omega), s1.others j a e]
  have r2 : (c4.reg 2).toNat = n + 1 := by rw [show c4.reg 2 = c.reg 2 from low 2 (by decide) (by decide) (by decide) (by decide), h2]
  obtain ⟨c5, e5, s5, v5, z5, m5⟩ := addSub_run c4 true (k := 2) (by decide) (w32 1) rfl
  have w5 := sum_minus r2
  have ha5 : Thumb.subsImmT2.act (field Thumb.subsImmT2.pat (0x01 + 256 * 0x3a)) = .addSub true false true 2 2 (.imm (w32 1)) := by decide +kernel
  have g5 : Goes mem 1 c4 c5 := by
    rw [← e5]
    refine goes_one (stands_in (by rw [m4, m3]; exact l2) hcode heven (j := 8) p4 (by decide) (a' := 0x00) (b' := 0xd0) (e' := Thumb.bCond) rfl rfl rfl rfl
      (by simp [encodings]) rfl ⟨by decide, by decide, by decide⟩ (by simp [encodings]) rfl ⟨by decide, by decide, by decide⟩ (not_wrong (by decide) _) ?_ ?_) ha5 rfl
    · rw [ha5]
      exact ⟨by decide, by decide, trivial⟩
    · rw [ha5]
      exact msb_small (by show (C17.sum (c4.reg 2) (~~~w32 1) true).toNat < _; omega)
  have p5 := pc_next p4 (by omega) s5.pc
  refine ⟨c5, goes_trans (goes_trans (goes_trans (goes_trans g1 g2) g3) g4) g5, ⟨?_, p5, ?_, ?_, ?_, ?_, ?_⟩, ?_, ?_⟩
  · rw [m5, m4, m3]
    exact l2
  · rw [show c5.reg 0 = c4.reg 0 from s5.others 0 (by decide) (by decide), show c4.reg 0 = _ from v4]
    exact w4
  · rw [show c5.reg 1 = c4.reg 1 from s5.others 1 (by decide) (by decide), show c4.reg 1 = c3.reg 1 from s4.others 1 (by decide) (by decide), show c3.reg 1 = _ from v3]
    exact w3
  · rw [show c5.reg 2 = _ from v5]
    exact w5
  · rw [show c5.reg 7 = c4.reg 7 from s5.others 7 (by decide) (by decide), show c4.reg 7 = c.reg 7 from low 7 (by decide) (by decide) (by decide) (by decide)]
    exact h7
  · rw [m5, m4, m3]
    exact f2
  · rw [z5]
    have : (C17.sum (c4.reg 2) (~~~w32 1) true == 0#32) = decide (C17.sum (c4.reg 2) (~~~w32 1) true = 0#32) := rfl
    refine this.trans (decide_eq_decide.2 ?_)
    rw [← BitVec.toNat_inj, w5]
    rfl
  · intro y
    rw [m5, m4, m3]
    exact mem2 y

/-- `beq end` -/
theorem beq_run {mem : List Region} {c : Core} {x dst src n : Nat} (h : At mem c x (x + 10) dst src n) (heven : x % 2 = 0) (hcode : Inside mem x 16)
    (htop : x + 16 < 2 ^ 32) : ∃ c', Goes mem 1 c c' ∧ At mem c' x (if c.flag 30 then x + 14 else x + 12) dst src n ∧ c'.mem = c.mem := by
  obtain ⟨hlies, hpc, h0, h1, h2, h7, hfull⟩ := h
  have ha : Thumb.bCond.act (field Thumb.bCond.pat (0x00 + 256 * 0xd0)) = .branch 0 0#32 := by decide +kernel
  have hw : ¬ Wrong Thumb.bCond (field Thumb.bCond.pat (0x00 + 256 * 0xd0)) := by
    unfold Wrong
    decide
  have g := goes_one (stands_in hlies hcode heven (j := 10) hpc (by decide) (e := Thumb.bCond) (a' := 0x38) (b' := 0x47) (e' := Thumb.bx) rfl rfl rfl rfl
      (by simp [encodings]) rfl ⟨by decide, by decide, by decide⟩ (by simp [encodings]) rfl ⟨by decide, by decide, by decide⟩ hw (by rw [ha]; trivial)
      (by rw [ha]; trivial)) ha rfl
  have hrun : (Act.branch 0 0#32).run 2 c = if c.flag 30 then c.set 15 (c.reg 15 + 4#32 + 0#32) else c.next 2 := rfl
  rw [hrun] at g
  refine ⟨_, g, ?_⟩
  cases c.flag 30 with
  | true =>
    refine ⟨⟨hlies, ?_, h0, h1, h2, h7, hfull⟩, rfl⟩
    show (keepBits 15 (c.reg 15 + 4#32 + 0#32)).toNat = x + 14
    rw [show keepBits 15 (c.reg 15 + 4#32 + 0#32) = c.reg 15 + 4#32 + 0#32 from keepBits_plain (d := 15) (by decide) (by decide) _]
    rw [BitVec.add_zero, BitVec.toNat_add, hpc]
    simp
    omega
  | false =>
    refine ⟨⟨hlies, ?_, h0, h1, h2, h7, hfull⟩, rfl⟩
    exact pc_next hpc (by omega) (next_pc c 2)

/-- `bx r7` -/
theorem bx_run {mem : List Region} {c : Core} {x dst src n : Nat} (h : At mem c x (x + 12) dst src n) (heven : x % 2 = 0) (hcode : Inside mem x 16) :
    ∃ c', Goes mem 1 c c' ∧ At mem c' x x dst src n ∧ c'.mem = c.mem := by
  obtain ⟨hlies, hpc, h0, h1, h2, h7, hfull⟩ := h
  have ha : Thumb.bx.act (field Thumb.bx.pat (0x38 + 256 * 0x47)) = .bx 7 := by decide +kernel
  have g := goes_one (stands_in hlies hcode heven (j := 12) hpc (by decide) (e := Thumb.bx) (a' := 0x00) (b' := 0xbf) (e' := Thumb.nop) rfl rfl rfl rfl
      (by simp [encodings]) rfl ⟨by decide, by decide, by decide⟩ (by simp [encodings]) rfl ⟨by decide, by decide, by decide⟩ (not_wrong (by decide) _)
      (by rw [ha]; exact (by decide : 7 < 15)) (by rw [ha]; trivial)) ha rfl
  refine ⟨_, g, ⟨hlies, ?_, h0, h1, h2, h7, hfull⟩, rfl⟩
  show (keepBits 15 (c.reg 7 &&& ~~~1#32)).toNat = x
  rw [show keepBits 15 (c.reg 7 &&& ~~~1#32) = c.reg 7 &&& ~~~1#32 from keepBits_plain (d := 15) (by decide) (by decide) _]
  exact h7

/-- All of the loop. -/
theorem loop {mem : List Region} {x : Nat} : ∀ (n dst src : Nat) {c : Core}, At mem c x x dst src (n + 1) → Room mem x dst src (n + 1) →
    (dst ≤ src ∨ src + (n + 1) ≤ dst) → ∃ c', Goes mem (7 * n + 6) c c' ∧ At mem c' x (x + 14) (dst + (n + 1)) (src + (n + 1)) 0 ∧
      ∀ y : Int, c'.mem y = if (dst : Int) ≤ y ∧ y < dst + ((n + 1 : Nat) : Int) then c.mem (src + (y - dst)) else c.mem y
  | 0, dst, src, c, h, hr, _ => by
    obtain ⟨c1, g1, a1, z1, m1⟩ := body h hr
    obtain ⟨c2, g2, a2, m2⟩ := beq_run a1 hr.even hr.code hr.top
    rw [z1] at a2
    refine ⟨c2, (goes_trans g1 g2 : Goes mem (5 + 1) c c2), a2, fun y => ?_⟩
    rw [m2, m1]
    by_cases hy : y = dst
    · rw [if_pos hy, if_pos (by omega), show (src : Int) + (y - dst) = src by omega]
    · rw [if_neg hy, if_neg (by omega)]
  | n + 1, dst, src, c, h, hr, hd => by
    obtain ⟨c1, g1, a1, z1, m1⟩ := body h hr
    obtain ⟨c2, g2, a2, m2⟩ := beq_run a1 hr.even hr.code hr.top
    rw [z1, decide_eq_false (by omega)] at a2
    obtain ⟨c3, g3, a3, m3⟩ := bx_run a2 hr.even hr.code
    have hroom : Room mem x (dst + 1) (src + 1) (n + 1) := by
      obtain ⟨h1, h2, h3, h4, h5, h6, h7, h8⟩ := hr
      refine ⟨h1, h2, h3, fun j hj => ?_, fun j hj => ?_, by omega, by omega, fun j hj => ?_⟩
      · rw [show src + 1 + j = src + (j + 1) by omega]
        exact h4 _ (by omega)
      · rw [show dst + 1 + j = dst + (j + 1) by omega]
        exact h5 _ (by omega)
      · have := h8 (j + 1) (by omega)
        omega
    obtain ⟨c4, g4, a4, m4⟩ := loop n (dst + 1) (src + 1) a3 hroom (by omega)
    refine ⟨c4, ?_, ?_, fun y => ?_⟩
    · have := goes_trans (goes_trans (goes_trans g1 g2) g3) g4
      rw [show 7 * (n + 1) + 6 = 5 + 1 + 1 + (7 * n + 6) by omega]
      exact this
    · rw [show dst + (n + 1 + 1) = dst + 1 + (n + 1) by omega, show src + (n + 1 + 1) = src + 1 + (n + 1) by omega]
      exact a4
    · rw [m4, m3, m2, m1, m1]
      by_cases h1 : y = dst
      · rw [if_neg (by omega), if_pos h1, if_pos (by omega), show (src : Int) + (y - dst) = src by omega]
      · by_cases h2 : (dst : Int) ≤ y ∧ y < dst + ((n + 1 + 1 : Nat) : Int)
        · rw [if_pos (by omega), if_pos h2, if_neg (by omega)]
          congr 1
          omega
        · rw [if_neg (by omega), if_neg h2, if_neg h1]

/-- **C99.** A loop in the simulator: `7 * n - 1` step commands at the copy routine copy `n`
bytes, for every `n`, every content of memory and all addresses below 2 ^ 31, and change nothing
else in memory. The ranges may overlap as long as copying upwards is right. Missing from the full
claim: higher addresses (see `full_claim_false`) and a branch backwards in place of BX (see
`no_direct_loop_partial`). -/
theorem copies_partial (python : Python) {w : World} {c : Core} (hs : Shows w.cpu c) (hm : MemOK w.cpu.mem) {x dst src n : Nat} (hn : 0 < n)
    (hr : Room w.cpu.mem x dst src n) (hover : dst ≤ src ∨ src + n ≤ dst) (hcode : Lies (flat w.cpu.mem) x copyLoop)
    (hpc : w.cpu.regs (some 15) = some (x : Int)) (h0 : w.cpu.regs (some 0) = some (dst : Int)) (h1 : w.cpu.regs (some 1) = some (src : Int))
    (h2 : w.cpu.regs (some 2) = some (n : Int)) (h7 : w.cpu.regs (some 7) = some (x : Int) ∨ w.cpu.regs (some 7) = some ((x + 1 : Nat) : Int))
    {cmds : List Str} (hl : cmds.length = 7 * n - 1) (hc : ∀ cmd ∈ cmds, ∃ name ∈ stepNames, ∃ args, Says cmd name args) :
    ∃ s' ls, processCommands python cmds w = (.ok (), ⟨s', w.out ++ ls⟩) ∧ ls.length = 7 * n - 1 ∧
      s'.regs (some 0) = some ((dst + n : Nat) : Int) ∧ s'.regs (some 1) = some ((src + n : Nat) : Int) ∧ s'.regs (some 2) = some 0 ∧
      s'.regs (some 15) = some ((x + 14 : Nat) : Int) ∧
      ∀ y : Int, flat s'.mem y = if (dst : Int) ≤ y ∧ y < dst + (n : Int) then flat w.cpu.mem (src + (y - dst)) else flat w.cpu.mem y := by
  obtain ⟨n, rfl⟩ : ∃ k, n = k + 1 := ⟨n - 1, by omega⟩
  have reg : ∀ k ∈ coreIndices, ∀ {v : Nat}, w.cpu.regs (some k) = some (v : Int) → (c.reg k).toNat = v := fun k hk v h => by
    rw [hs.1 k hk] at h
    exact Int.ofNat.inj (Option.some.inj h)
  have ha : At w.cpu.mem c x x dst src (n + 1) := by
    refine ⟨by rw [← hs.2]; exact hcode, reg 15 (by decide) hpc, reg 0 (by decide) h0, reg 1 (by decide) h1, reg 2 (by decide) h2, ?_,
      by rw [← hs.2]; exact full_flat hm⟩
    have heven := hr.even
    have : (c.reg 7 &&& ~~~1#32).toNat = (c.reg 7).toNat / 2 * 2 := C81.clear_nat _
    rw [this]
    rcases h7 with h | h
    · rw [reg 7 (by decide) h]
      omega
    · rw [reg 7 (by decide) h]
      omega
  obtain ⟨d, hg, hd, hmem⟩ := loop n dst src ha hr hover
  obtain ⟨s', ls, e1, e2, e3, -⟩ := steps_partial python hg (w := w) (cmds := cmds) rfl hs hm (by omega) hc
  refine ⟨s', ls, e1, by omega, ?_, ?_, ?_, ?_, fun y => ?_⟩
  · rw [e3.1 0 (by decide), hd.r0]
  · rw [e3.1 1 (by decide), hd.r1]
  · rw [e3.1 2 (by decide), hd.r2]
    rfl
  · rw [e3.1 15 (by decide), hd.pc]
  · rw [e3.2, hmem, hs.2]

/-- **C99.** With higher addresses the routine does not work: the pointer is complemented. -/
theorem full_claim_false (rest : List Nat) (hr : ∀ b ∈ rest, b < 256) (a : Int) {s : Machine} {c : Core} (hs : Shows s c)
    (h1 : 2 ^ 31 - 1 ≤ (c.reg 1).toNat) (h1' : (c.reg 1).toNat + 1 < 2 ^ 32) :
    ∃ i i' s', (trees.decode ([0x01, 0x31] ++ rest) a).1 = .ok i ∧ i.eval s = (.ok i', s') ∧
      s'.regs (some 1) = some ((2 ^ 32 - 2 - (c.reg 1).toNat : Nat) : Int) := by
  have ha : Thumb.addsImmT2.act (field Thumb.addsImmT2.pat 0x3101) = .addSub false false true 1 1 (.imm (w32 1)) := by decide +kernel
  obtain ⟨i, d1, d2, -⟩ := case_decodes (c := Case.addsImmT2) (by simp [Case.all]) (w := 0x3101) ⟨by decide, by decide, by decide⟩ rfl rest hr a
  have d2 : (Act.addSub false false true 1 1 (.imm (w32 1))).Of i := d2
  obtain ⟨i', s', e1, e2⟩ := C43.add_sub_exact d2 (by decide) (by decide) trivial hs _ _ _ rfl rfl rfl
  refine ⟨i, i', s', d1, e1, ?_⟩
  rw [e2.1 1 (by decide)]
  have hsum : (C17.sum (c.reg 1) (w32 1) false).toNat = (c.reg 1).toNat + 1 := by
    unfold C17.sum w32
    rw [BitVec.toNat_ofNat, BitVec.toNat_ofNat]
    simp
    omega
  have hneg : (C17.sum (c.reg 1) (w32 1) false).msb = true := by
    rw [BitVec.msb_eq_decide]
    simp
    omega
  refine congrArg (fun n : Nat => some (n : Int)) ?_
  refine (congrArg BitVec.toNat ((result_reg (d := 1) (by decide) _).trans (keepBits_plain (by decide) (by decide) _))).trans ?_
  show (C43.wrongIfNegative (C17.sum (c.reg 1) (w32 1) false)).toNat = _
  unfold C43.wrongIfNegative
  rw [if_pos hneg, BitVec.toNat_not, hsum]
  omega

theorem used_small (offset : Word) : (C50.used offset).toNat < 2 ^ 31 := by
  have hm : (C50.used offset).msb = false := by
    unfold C50.used
    cases h : offset.msb
    · rw [if_neg (by decide), h]
    · rw [if_pos rfl, BitVec.msb_not, h]
      decide
  rw [BitVec.msb_eq_decide] at hm
  simpa using hm

theorem target_higher {x : Word} (h : x.toNat + 4 ≤ 2 ^ 31) (offset : Word) : x.toNat < (x + 4#32 + C50.used offset).toNat := by
  have := used_small offset
  rw [BitVec.toNat_add, BitVec.toNat_add]
  simp
  omega

/-- **C99.** No loop can be made with B, a conditional branch or BL: whatever the encoded
offset is, PC afterwards is higher than before. (Missing: that a branch backwards goes back, as
it should. PC in the upper half of the addresses, where the sum may wrap around.) -/
theorem no_direct_loop_partial {e : Enc} (he : e ∈ [Thumb.b, Thumb.bCond, Thumb.bl]) (w : Nat) (h : e.Is w)
    (rest : List Nat) (hr : ∀ b ∈ rest, b < 256) (a : Int) {s : Machine} {c : Core} (hs : Shows s c) (hpc : (c.reg 15).toNat + 4 ≤ 2 ^ 31) :
    ∃ i i' s' p, (trees.decode (C38.bytesOf e w ++ rest) a).1 = .ok i ∧ i.eval s = (.ok i', s') ∧ s'.regs (some 15) = some p ∧
      ((c.reg 15).toNat : Int) < p := by
  have plain : ∀ {d : Core} {v : Word}, (d.set 15 v).reg 15 = v := fun {d v} => by
    rw [core_reg_set, if_pos (.inl rfl)]
    exact keepBits_plain (d := 15) (by decide) (by decide) _
  have key : ∀ {i : Instr} {d : Core}, (trees.decode (C38.bytesOf e w ++ rest) a).1 = .ok i → EndsIn i s d → (c.reg 15).toNat < (d.reg 15).toNat →
      ∃ i i' s' p, (trees.decode (C38.bytesOf e w ++ rest) a).1 = .ok i ∧ i.eval s = (.ok i', s') ∧ s'.regs (some 15) = some p ∧
        ((c.reg 15).toNat : Int) < p := by
    rintro i d h1 ⟨i', s', h2, h3⟩ h4
    exact ⟨i, i', s', _, h1, h2, h3.1 15 (by decide), by omega⟩
  simp only [List.mem_cons, List.not_mem_nil, or_false] at he
  rcases he with rfl | rfl | rfl
  · obtain ⟨i, h1, h2⟩ := C50.b_target w h rest hr a hs
    refine key h1 h2 ?_
    rw [plain]
    exact target_higher hpc _
  · obtain ⟨i, h1, h2⟩ := C50.conditional_target w h rest hr a hs
    refine key h1 h2 ?_
    split
    · rw [plain]
      exact target_higher hpc _
    · rw [next_pc, BitVec.toNat_add]
      simp
      omega
  · obtain ⟨i, h1, h2⟩ := C50.bl_target w h rest hr a hs
    refine key h1 h2 ?_
    rw [plain]
    exact target_higher hpc _

/-- The routine at 0, three bytes at 0x10 and room for them at 0x18. -/
def copyMem : List Region := [⟨0, 0x1f, copyLoop ++ [7, 8, 9, 0, 0, 0, 0, 0, 1, 1, 1, 1, 1, 1, 1, 1]⟩]

/-- Three bytes are copied by 20 steps. -/
example (python : Python) {s : Machine} {c : Core} (hs : Shows s c) (hm : s.mem = copyMem) (hpc : s.regs (some 15) = some 0)
    (h0 : s.regs (some 0) = some 0x18) (h1 : s.regs (some 1) = some 0x10) (h2 : s.regs (some 2) = some 3) (h7 : s.regs (some 7) = some 1) :
    ∃ s' ls, processCommands python (List.replicate 20 (c! "step")) ⟨s, []⟩ = (.ok (), ⟨s', ls⟩) ∧ s'.regs (some 0) = some 0x1b ∧
      (List.range 5).map (fun j => flat s'.mem ((0x17 + j : Nat) : Int)) = [some 0, some 7, some 8, some 9, some 1] := by
  have hok : MemOK s.mem := by
    rw [hm]
    refine ⟨?_, List.pairwise_singleton _ _⟩
    intro m h
    simp only [copyMem, List.mem_cons, List.not_mem_nil, or_false] at h
    subst h
    exact ⟨by decide, by decide⟩
  have hin : Inside s.mem 0 32 := by
    rw [hm]
    exact ⟨_, List.mem_cons_self, by decide, by decide⟩
  have hroom : Room s.mem 0 0x18 0x10 3 := ⟨rfl, inside_part hin (by decide) (by decide), by decide, fun j hj => inside_part hin (by omega) (by omega),
    fun j hj => inside_part hin (by omega) (by omega), by decide, by decide, fun j hj => by omega⟩
  have hcode : Lies (flat s.mem) 0 copyLoop := by
    rw [hm]
    unfold Lies
    decide +kernel
  obtain ⟨s', ls, e1, -, e2, -, -, -, e3⟩ := copies_partial python (w := ⟨s, []⟩) hs hok (by decide) hroom (.inr (by decide)) hcode hpc h0 h1 h2 (.inr h7)
    (cmds := List.replicate 20 (c! "step")) (by decide) (fun cmd h => by
      rw [List.eq_of_mem_replicate h]
      exact ⟨_, by decide, _, says_step⟩)
  refine ⟨s', ls, by simpa using e1, e2, ?_⟩
  simp only [e3]
  rw [hm]
  decide +kernel

end C99
end Verif
