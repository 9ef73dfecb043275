import Verif.Props.C99

/-!
# C107: loops that compute
-/

namespace Verif
open Console Typed BS Thumb C70

namespace C107
open C99

/-! ### The branches at the end of a loop -/

/-- BEQ over one instruction. -/
theorem beq_over {mem : List Region} {c : Core} {x j : Nat} {bs : List Nat} (h : Lies c.mem x bs) (hin : Inside mem x bs.length) (hx : x % 2 = 0)
    (hpc : (c.reg 15).toNat = x + j) (hj : j % 2 = 0) (htop : x + j + 4 < 2 ^ 32) (ha : bs[j]? = some 0x00) (hb : bs[j + 1]? = some 0xd0)
    (ha' : bs[j + 2]? = some 0x38) (hb' : bs[j + 3]? = some 0x47) : ∃ c', Goes mem 1 c c' ∧
      (c'.reg 15).toNat = (if c.flag 30 then x + j + 4 else x + j + 2) ∧ (∀ k : Nat, k < 8 → c'.reg k = c.reg k) ∧ c'.mem = c.mem := by
  have he : Thumb.bCond.act (field Thumb.bCond.pat (0x00 + 256 * 0xd0)) = .branch 0 0#32 := by decide +kernel
  have hw : ¬ Wrong Thumb.bCond (field Thumb.bCond.pat (0x00 + 256 * 0xd0)) := by
    unfold Wrong
    decide
  have g := goes_one (stands_in h hin hx hpc hj (e := Thumb.bCond) (e' := Thumb.bx) ha hb ha' hb'
      (by simp [encodings]) rfl ⟨by decide, by decide, by decide⟩ (by simp [encodings]) rfl ⟨by decide, by decide, by decide⟩ hw (by rw [he]; trivial)
      (by rw [he]; trivial)) he rfl
  have hrun : (Act.branch 0 0#32).run 2 c = if c.flag 30 then c.set 15 (c.reg 15 + 4#32 + 0#32) else c.next 2 := rfl
  rw [hrun] at g
  refine ⟨_, g, ?_⟩
  cases c.flag 30 with
  | true =>
    refine ⟨?_, fun k hk => ?_, rfl⟩
    · show (keepBits 15 (c.reg 15 + 4#32 + 0#32)).toNat = x + j + 4
      rw [show keepBits 15 (c.reg 15 + 4#32 + 0#32) = c.reg 15 + 4#32 + 0#32 from keepBits_plain (d := 15) (by decide) (by decide) _]
      rw [BitVec.add_zero, BitVec.toNat_add, hpc]
      simp
      omega
    · show (c.set 15 _).reg k = c.reg k
      rw [core_reg_set, if_neg (by omega)]
  | false =>
    refine ⟨?_, fun k hk => ?_, rfl⟩
    · exact pc_next hpc (by omega) (next_pc c 2)
    · exact next_reg c 2 (by omega)

/-- BX to the beginning. -/
theorem bx_back {mem : List Region} {c : Core} {x j : Nat} {bs : List Nat} (h : Lies c.mem x bs) (hin : Inside mem x bs.length) (hx : x % 2 = 0)
    (hpc : (c.reg 15).toNat = x + j) (hj : j % 2 = 0) (h7 : (c.reg 7 &&& ~~~1#32).toNat = x) (ha : bs[j]? = some 0x38) (hb : bs[j + 1]? = some 0x47)
    (ha' : bs[j + 2]? = some 0x00) (hb' : bs[j + 3]? = some 0xbf) : ∃ c', Goes mem 1 c c' ∧
      (c'.reg 15).toNat = x ∧ (∀ k : Nat, k < 8 → c'.reg k = c.reg k) ∧ c'.mem = c.mem := by
  have he : Thumb.bx.act (field Thumb.bx.pat (0x38 + 256 * 0x47)) = .bx 7 := by decide +kernel
  have g := goes_one (stands_in h hin hx hpc hj (e := Thumb.bx) (e' := Thumb.nop) ha hb ha' hb'
      (by simp [encodings]) rfl ⟨by decide, by decide, by decide⟩ (by simp [encodings]) rfl ⟨by decide, by decide, by decide⟩ (not_wrong (by decide) _)
      (by rw [he]; exact (by decide : 7 < 15)) (by rw [he]; trivial)) he rfl
  refine ⟨_, g, ?_, fun k hk => ?_, rfl⟩
  · show (keepBits 15 (c.reg 7 &&& ~~~1#32)).toNat = x
    rw [show keepBits 15 (c.reg 7 &&& ~~~1#32) = c.reg 7 &&& ~~~1#32 from keepBits_plain (d := 15) (by decide) (by decide) _]
    exact h7
  · show (c.set 15 _).reg k = c.reg k
    rw [core_reg_set, if_neg (by omega)]

/-- The loop register points to the beginning, with or without bit 0. -/
theorem back {x : Nat} (hx : x % 2 = 0) {v : Word} (h : v.toNat = x ∨ v.toNat = x + 1) : (v &&& ~~~1#32).toNat = x := by
  have : (v &&& ~~~1#32).toNat = v.toNat / 2 * 2 := C81.clear_nat _
  omega

/-! ### A factorial -/

/-- `muls r1, r0; subs r0, #1; beq end; bx r7; end: nop` -/
def factLoop : List Nat := [0x41, 0x43, 0x01, 0x38, 0x00, 0xd0, 0x38, 0x47, 0x00, 0xbf]

/-- The product of the numbers from 1 to n. -/
def fact : Nat → Nat
  | 0 => 1
  | n + 1 => (n + 1) * fact n

theorem mul_run (c : Core) : ∃ c', (Act.mul true 1 0 1).run 2 c = c' ∧ Stepped c c' 1 ∧ c'.reg 1 = c.reg 0 * c.reg 1 ∧ c'.mem = c.mem := by
  refine ⟨_, rfl, ⟨?_, ?_⟩, ?_, ?_⟩ <;> simp only [Act.run, core_rd c (show 0 < 15 by omega), core_rd c (show 1 < 15 by omega), core_result (show 1 < 15 by omega)]
  · rw [next_pc, set_other _ (by decide) (by omega), flags_reg _ _ _ _ _ (by decide)]
  · intro j hj hjk
    rw [next_reg _ _ (by omega), set_other _ (by decide) (by omega), flags_reg _ _ _ _ _ (by omega)]
  · rw [next_reg _ _ (by omega)]
    exact set_low _ (k := 1) (by decide) _
  · exact C99.flags_mem _ _ _ _ _

/-- The routine at `x`, in front of its first instruction. -/
structure Ready (mem : List Region) (c : Core) (x : Nat) (code : List Nat) : Prop where
  lies : Lies c.mem x code
  inside : Inside mem x code.length
  even : x % 2 = 0
  top : x + code.length < 2 ^ 32
  pc : (c.reg 15).toNat = x
  r7 : (c.reg 7 &&& ~~~1#32).toNat = x

/-- The first three instructions. -/
theorem fact_body {mem : List Region} {x n : Nat} {c : Core} (h : Ready mem c x factLoop) (h0 : (c.reg 0).toNat = n + 1) (hn : n < 2 ^ 31) :
    ∃ c', Goes mem 3 c c' ∧ (c'.reg 15).toNat = (if n = 0 then x + 8 else x + 6) ∧ (c'.reg 0).toNat = n ∧ c'.reg 1 = c.reg 0 * c.reg 1 ∧
      c'.reg 7 = c.reg 7 ∧ c'.mem = c.mem := by
  obtain ⟨hlies, hcode, heven, htop, hpc, h7⟩ := h
  simp only [factLoop, List.length_cons, List.length_nil] at htop
  -- muls r1, r0
  obtain ⟨c1, e1, s1, v1, m1⟩ := mul_run c
  have ha1 : Thumb.muls.act (field Thumb.muls.pat (0x41 + 256 * 0x43)) = .mul true 1 0 1 := by decide +kernel
  have g1 : Goes mem 1 c c1 := by
    rw [← e1]
    refine goes_one (stands_in hlies hcode heven (j := 0) hpc (by decide) (a' := 0x01) (b' := 0x38) (e' := Thumb.subsImmT2) rfl rfl rfl rfl
      (by simp [encodings]) rfl ⟨by decide, by decide, by decide⟩ (by simp [encodings]) rfl ⟨by decide, by decide, by decide⟩ (not_wrong (by decide) _) ?_ ?_) ha1 rfl
    · rw [ha1]
      exact ⟨by decide, by decide, by decide⟩
    · rw [ha1]
      trivial
  have p1 := pc_next hpc (by omega) s1.pc
  -- subs r0, #1
  have r0 : (c1.reg 0).toNat = n + 1 := by rw [show c1.reg 0 = c.reg 0 from s1.others 0 (by decide) (by decide), h0]
  obtain ⟨c2, e2, s2, v2, z2, m2⟩ := addSub_run c1 true (k := 0) (by decide) (w32 1) rfl
  have w2 := sum_minus r0
  have ha2 : Thumb.subsImmT2.act (field Thumb.subsImmT2.pat (0x01 + 256 * 0x38)) = .addSub true false true 0 0 (.imm (w32 1)) := by decide +kernel
  have g2 : Goes mem 1 c1 c2 := by
    rw [← e2]
    refine goes_one (stands_in (by rw [m1]; exact hlies) hcode heven (j := 2) p1 (by decide) (a' := 0x00) (b' := 0xd0) (e' := Thumb.bCond) rfl rfl rfl rfl
      (by simp [encodings]) rfl ⟨by decide, by decide, by decide⟩ (by simp [encodings]) rfl ⟨by decide, by decide, by decide⟩ (not_wrong (by decide) _) ?_ ?_) ha2 rfl
    · rw [ha2]
      exact ⟨by decide, by decide, trivial⟩
    · rw [ha2]
      exact msb_small (by show (C17.sum (c1.reg 0) (~~~w32 1) true).toNat < _; omega)
  have p2 := pc_next p1 (by omega) s2.pc
  -- beq end
  obtain ⟨c3, g3, p3, k3, m3⟩ := beq_over (c := c2) (j := 4) (by rw [m2, m1]; exact hlies) hcode heven p2 (by decide) (by omega) rfl rfl rfl rfl
  have hz : c2.flag 30 = decide (n = 0) := by
    rw [z2]
    have : (C17.sum (c1.reg 0) (~~~w32 1) true == 0#32) = decide (C17.sum (c1.reg 0) (~~~w32 1) true = 0#32) := rfl
    refine this.trans (decide_eq_decide.2 ?_)
    rw [← BitVec.toNat_inj, w2]
    rfl
  rw [hz] at p3
  refine ⟨c3, goes_trans (goes_trans g1 g2) g3, ?_, ?_, ?_, ?_, ?_⟩
  · rw [p3]
    by_cases h : n = 0 <;> simp [h]
  · rw [show c3.reg 0 = c2.reg 0 from k3 0 (by decide), show c2.reg 0 = _ from v2]
    exact w2
  · rw [show c3.reg 1 = c2.reg 1 from k3 1 (by decide), show c2.reg 1 = c1.reg 1 from s2.others 1 (by decide) (by decide), v1]
  · rw [show c3.reg 7 = c2.reg 7 from k3 7 (by decide), show c2.reg 7 = c1.reg 7 from s2.others 7 (by decide) (by decide),
      show c1.reg 7 = c.reg 7 from s1.others 7 (by decide) (by decide)]
  · rw [m3, m2, m1]

theorem fact_loop {mem : List Region} {x : Nat} : ∀ (n : Nat) {c : Core}, Ready mem c x factLoop → (c.reg 0).toNat = n + 1 → n < 2 ^ 31 →
    ∃ c', Goes mem (4 * n + 3) c c' ∧ (c'.reg 15).toNat = x + 8 ∧ (c'.reg 0).toNat = 0 ∧
      c'.reg 1 = c.reg 1 * BitVec.ofNat 32 (fact (n + 1)) ∧ c'.mem = c.mem
  | 0, c, h, h0, hn => by
    obtain ⟨c1, g1, p1, r0, r1, -, m1⟩ := fact_body h h0 hn
    refine ⟨c1, g1, p1, r0, ?_, m1⟩
    rw [r1, BitVec.mul_comm]
    congr 1
    apply BitVec.eq_of_toNat_eq
    rw [h0]
    rfl
  | n + 1, c, h, h0, hn => by
    obtain ⟨c1, g1, p1, r0, r1, r7, m1⟩ := fact_body h h0 hn
    rw [if_neg (by omega)] at p1
    obtain ⟨c2, g2, p2, k2, m2⟩ := bx_back (c := c1) (j := 6) (by rw [m1]; exact h.lies) h.inside h.even p1 (by decide) (by rw [r7]; exact h.r7)
      rfl rfl rfl rfl
    have hready : Ready mem c2 x factLoop := ⟨by rw [m2, m1]; exact h.lies, h.inside, h.even, h.top, p2,
      by rw [show c2.reg 7 = c1.reg 7 from k2 7 (by decide), r7]; exact h.r7⟩
    obtain ⟨c3, g3, p3, r3, v3, m3⟩ := fact_loop n hready (by rw [show c2.reg 0 = c1.reg 0 from k2 0 (by decide), r0]) (by omega)
    refine ⟨c3, ?_, p3, r3, ?_, by rw [m3, m2, m1]⟩
    · have := goes_trans (goes_trans g1 g2) g3
      rw [show 4 * (n + 1) + 3 = 3 + 1 + (4 * n + 3) by omega]
      exact this
    · have e0 : c.reg 0 = BitVec.ofNat 32 (n + 1 + 1) := by
        apply BitVec.eq_of_toNat_eq
        rw [h0, BitVec.toNat_ofNat]
        omega
      rw [v3, show c2.reg 1 = c1.reg 1 from k2 1 (by decide), r1, e0, show fact (n + 1 + 1) = (n + 1 + 1) * fact (n + 1) from rfl, BitVec.ofNat_mul]
      generalize BitVec.ofNat 32 (n + 1 + 1) = y
      generalize BitVec.ofNat 32 (fact (n + 1)) = z
      rw [BitVec.mul_comm y, BitVec.mul_assoc]

/-- **C107.** A loop in the simulator that computes: `4 * n - 1` step commands at the routine leave `n!` in r1, modulo 2 ^ 32, for
every `n` from 1 to 2 ^ 31, and change nothing in memory. -/
theorem factorial (python : Python) {w : World} {c : Core} (hs : Shows w.cpu c) (hm : MemOK w.cpu.mem) {x n : Nat} (hn : 0 < n) (hn' : n ≤ 2 ^ 31)
    (heven : x % 2 = 0) (htop : x + 10 < 2 ^ 32) (hin : Inside w.cpu.mem x 10) (hcode : Lies (flat w.cpu.mem) x factLoop)
    (hpc : w.cpu.regs (some 15) = some (x : Int)) (h0 : w.cpu.regs (some 0) = some (n : Int)) (h1 : w.cpu.regs (some 1) = some 1)
    (h7 : w.cpu.regs (some 7) = some (x : Int) ∨ w.cpu.regs (some 7) = some ((x + 1 : Nat) : Int))
    {cmds : List Str} (hl : cmds.length = 4 * n - 1) (hc : ∀ cmd ∈ cmds, ∃ name ∈ stepNames, ∃ args, Says cmd name args) :
    ∃ s' ls, processCommands python cmds w = (.ok (), ⟨s', w.out ++ ls⟩) ∧ ls.length = 4 * n - 1 ∧
      s'.regs (some 1) = some ((fact n % 2 ^ 32 : Nat) : Int) ∧ s'.regs (some 0) = some 0 ∧ s'.regs (some 15) = some ((x + 8 : Nat) : Int) ∧
      flat s'.mem = flat w.cpu.mem := by
  obtain ⟨n, rfl⟩ : ∃ k, n = k + 1 := ⟨n - 1, by omega⟩
  have reg : ∀ k ∈ coreIndices, ∀ {v : Nat}, w.cpu.regs (some k) = some (v : Int) → (c.reg k).toNat = v := fun k hk v h => by
    rw [hs.1 k hk] at h
    exact Int.ofNat.inj (Option.some.inj h)
  have hready : Ready w.cpu.mem c x factLoop := ⟨by rw [← hs.2]; exact hcode, hin, heven, htop, reg 15 (by decide) hpc,
    back heven (h7.imp (reg 7 (by decide)) (reg 7 (by decide)))⟩
  obtain ⟨d, hg, hd, h0', h1', hmem⟩ := fact_loop n hready (reg 0 (by decide) h0) (by omega)
  obtain ⟨s', ls, e1, e2, e3, -⟩ := steps_partial python hg (w := w) (cmds := cmds) rfl hs hm (by omega) hc
  refine ⟨s', ls, e1, by omega, ?_, ?_, ?_, ?_⟩
  · have : c.reg 1 = 1#32 := BitVec.eq_of_toNat_eq (reg 1 (by decide) (v := 1) h1)
    rw [e3.1 1 (by decide), h1', this, BitVec.one_mul, BitVec.toNat_ofNat]
  · rw [e3.1 0 (by decide), h0']
    rfl
  · rw [e3.1 15 (by decide), hd]
  · rw [e3.2, hmem, hs.2]

/-! ### The length of a text -/

/-- `ldrb r2, [r1]; adds r1, #1; cmp r2, #0; beq end; bx r7; end: nop` -/
def endLoop : List Nat := [0x0a, 0x78, 0x01, 0x31, 0x00, 0x2a, 0x00, 0xd0, 0x38, 0x47, 0x00, 0xbf]

/-- CMP of r2 with 0. -/
theorem cmp_run (c : Core) : ∃ c', (Act.cmp true 2 (.imm (w32 0))).run 2 c = c' ∧ Stepped c c' 8 ∧ c'.flag 30 = decide ((c.reg 2).toNat = 0) ∧ c'.mem = c.mem := by
  have hsum : C17.sum (c.reg 2) (~~~w32 0) true = c.reg 2 := by
    apply BitVec.eq_of_toNat_eq
    have := (c.reg 2).isLt
    unfold C17.sum w32
    rw [BitVec.toNat_ofNat]
    simp
    omega
  refine ⟨_, rfl, ⟨?_, ?_⟩, ?_, ?_⟩ <;> simp only [Act.run, core_rd c (show 2 < 15 by omega), Src.val]
  · rw [next_pc, flags_reg _ _ _ _ _ (by decide)]
  · intro j hj hjk
    rw [next_reg _ _ (by omega), flags_reg _ _ _ _ _ (by omega)]
  · unfold Core.flag
    rw [next_reg _ _ (by decide)]
    refine (flags_z _ _ _ _).trans ?_
    rw [if_pos trivial, show C17.sum (c.reg ((2 : Nat) : Int)) (~~~w32 0) true = c.reg 2 from hsum]
    have : (c.reg 2 == 0#32) = decide (c.reg 2 = 0#32) := rfl
    refine this.trans (decide_eq_decide.2 ?_)
    rw [← BitVec.toNat_inj]
    rfl
  · exact C99.flags_mem _ _ _ _ _

/-- The first four instructions. -/
theorem end_body {mem : List Region} {x src b : Nat} {c : Core} (h : Ready mem c x endLoop) (h1 : (c.reg 1).toNat = src) (hsrc : src + 1 < 2 ^ 31)
    (hin : Inside mem src 1) (hb : c.mem (src : Int) = some b) (hb256 : b < 256) :
    ∃ c', Goes mem 4 c c' ∧ (c'.reg 15).toNat = (if b = 0 then x + 10 else x + 8) ∧ (c'.reg 1).toNat = src + 1 ∧ (c'.reg 2).toNat = b ∧
      c'.reg 7 = c.reg 7 ∧ c'.mem = c.mem := by
  obtain ⟨hlies, hcode, heven, htop, hpc, h7⟩ := h
  simp only [endLoop, List.length_cons, List.length_nil] at htop
  -- ldrb r2, [r1]
  obtain ⟨c1, e1, s1, v1, m1⟩ := loadByte_run c (t := 2) (n := 1) (by decide) (by decide) (b := b) (by rw [show c.reg ((1 : Nat) : Int) = c.reg 1 from rfl, h1]; exact hb) hb256
  have ha1 : Thumb.ldrbImm.act (field Thumb.ldrbImm.pat (0x0a + 256 * 0x78)) = .load 8 false 2 1 (.imm (w32 0)) := by decide +kernel
  have g1 : Goes mem 1 c c1 := by
    rw [← e1]
    refine goes_one (stands_in hlies hcode heven (j := 0) hpc (by decide) (a' := 0x01) (b' := 0x31) (e' := Thumb.addsImmT2) rfl rfl rfl rfl
      (by simp [encodings]) rfl ⟨by decide, by decide, by decide⟩ (by simp [encodings]) rfl ⟨by decide, by decide, by decide⟩ (not_wrong (by decide) _) ?_ ?_) ha1 rfl
    · rw [ha1]
      exact ⟨by decide, by decide, trivial⟩
    · rw [ha1]
      show Inside mem (c.reg 1 + w32 0).toNat 1
      rw [show c.reg 1 + w32 0 = c.reg 1 by simp [w32], h1]
      exact hin
  have p1 := pc_next hpc (by omega) s1.pc
  -- adds r1, #1
  have r1 : (c1.reg 1).toNat = src := by rw [show c1.reg 1 = c.reg 1 from s1.others 1 (by decide) (by decide), h1]
  obtain ⟨c2, e2, s2, v2, z2, m2⟩ := addSub_run c1 false (k := 1) (by decide) (w32 1) rfl
  have w2 := sum_one r1 hsrc
  have ha2 : Thumb.addsImmT2.act (field Thumb.addsImmT2.pat (0x01 + 256 * 0x31)) = .addSub false false true 1 1 (.imm (w32 1)) := by decide +kernel
  have g2 : Goes mem 1 c1 c2 := by
    rw [← e2]
    refine goes_one (stands_in (by rw [m1]; exact hlies) hcode heven (j := 2) p1 (by decide) (a' := 0x00) (b' := 0x2a) (e' := Thumb.cmpImm) rfl rfl rfl rfl
      (by simp [encodings]) rfl ⟨by decide, by decide, by decide⟩ (by simp [encodings]) rfl ⟨by decide, by decide, by decide⟩ (not_wrong (by decide) _) ?_ ?_) ha2 rfl
    · rw [ha2]
      exact ⟨by decide, by decide, trivial⟩
    · rw [ha2]
      exact msb_small (by show (C17.sum (c1.reg 1) (w32 1) false).toNat < _; omega)
  have p2 := pc_next p1 (by omega) s2.pc
  -- cmp r2, #0
  have r2 : (c2.reg 2).toNat = b := by rw [show c2.reg 2 = c1.reg 2 from s2.others 2 (by decide) (by decide)]; exact v1
  obtain ⟨c3, e3, s3, z3, m3⟩ := cmp_run c2
  have ha3 : Thumb.cmpImm.act (field Thumb.cmpImm.pat (0x00 + 256 * 0x2a)) = .cmp true 2 (.imm (w32 0)) := by decide +kernel
  have g3 : Goes mem 1 c2 c3 := by
    rw [← e3]
    refine goes_one (stands_in (by rw [m2, m1]; exact hlies) hcode heven (j := 4) p2 (by decide) (a' := 0x00) (b' := 0xd0) (e' := Thumb.bCond) rfl rfl rfl rfl
      (by simp [encodings]) rfl ⟨by decide, by decide, by decide⟩ (by simp [encodings]) rfl ⟨by decide, by decide, by decide⟩ (not_wrong (by decide) _) ?_ ?_) ha3 rfl
    · rw [ha3]
      exact ⟨by decide, trivial⟩
    · rw [ha3]
      refine msb_small ?_
      show (C17.sum (c2.reg 2) (~~~w32 0) true).toNat < _
      unfold C17.sum w32
      rw [BitVec.toNat_ofNat, r2]
      simp
      omega
  have p3 := pc_next p2 (by omega) s3.pc
  -- beq end
  obtain ⟨c4, g4, p4, k4, m4⟩ := beq_over (c := c3) (j := 6) (by rw [m3, m2, m1]; exact hlies) hcode heven p3 (by decide) (by omega) rfl rfl rfl rfl
  rw [z3, r2] at p4
  refine ⟨c4, goes_trans (goes_trans (goes_trans g1 g2) g3) g4, ?_, ?_, ?_, ?_, ?_⟩
  · rw [p4]
    by_cases h : b = 0 <;> simp [h]
  · rw [show c4.reg 1 = c3.reg 1 from k4 1 (by decide), show c3.reg 1 = c2.reg 1 from s3.others 1 (by decide) (by decide), show c2.reg 1 = _ from v2]
    exact w2
  · rw [show c4.reg 2 = c3.reg 2 from k4 2 (by decide), show c3.reg 2 = c2.reg 2 from s3.others 2 (by decide) (by decide)]
    exact r2
  · rw [show c4.reg 7 = c3.reg 7 from k4 7 (by decide), show c3.reg 7 = c2.reg 7 from s3.others 7 (by decide) (by decide),
      show c2.reg 7 = c1.reg 7 from s2.others 7 (by decide) (by decide), show c1.reg 7 = c.reg 7 from s1.others 7 (by decide) (by decide)]
  · rw [m4, m3, m2, m1]

theorem end_loop {mem : List Region} {x : Nat} : ∀ (text : List Nat) (src : Nat) {c : Core}, Ready mem c x endLoop → (c.reg 1).toNat = src →
    (∀ b ∈ text, b ≠ 0 ∧ b < 256) → src + (text.length + 1) < 2 ^ 31 → (∀ j, j ≤ text.length → Inside mem ((src + j : Nat) : Int) 1) →
    Lies c.mem src (text ++ [0]) → ∃ c', Goes mem (5 * text.length + 4) c c' ∧ (c'.reg 15).toNat = x + 10 ∧ (c'.reg 1).toNat = src + (text.length + 1) ∧ c'.mem = c.mem
  | [], src, c, h, h1, _, hlow, hin, hlies => by
    obtain ⟨c1, g1, p1, r1, -, -, m1⟩ := end_body h h1 hlow (hin 0 (by simp)) (b := 0) (by simpa using hlies 0 (by simp)) (by decide)
    exact ⟨c1, g1, p1, r1, m1⟩
  | b :: text, src, c, h, h1, hb, hlow, hin, hlies => by
    simp only [List.length_cons] at hlow hin
    obtain ⟨hb0, hb256⟩ := hb b (by simp)
    obtain ⟨c1, g1, p1, r1, -, r7, m1⟩ := end_body h h1 (by omega) (hin 0 (by omega)) (b := b) (by simpa using hlies 0 (by simp)) hb256
    rw [if_neg hb0] at p1
    obtain ⟨c2, g2, p2, k2, m2⟩ := bx_back (c := c1) (j := 8) (by rw [m1]; exact h.lies) h.inside h.even p1 (by decide) (by rw [r7]; exact h.r7)
      rfl rfl rfl rfl
    have hready : Ready mem c2 x endLoop := ⟨by rw [m2, m1]; exact h.lies, h.inside, h.even, h.top, p2,
      by rw [show c2.reg 7 = c1.reg 7 from k2 7 (by decide), r7]; exact h.r7⟩
    obtain ⟨c3, g3, p3, r3, m3⟩ := end_loop text (src + 1) hready (by rw [show c2.reg 1 = c1.reg 1 from k2 1 (by decide), r1])
      (fun y hy => hb y (List.mem_cons_of_mem _ hy)) (by omega) (fun j hj => by rw [show src + 1 + j = src + (j + 1) by omega]; exact hin _ (by omega))
      (fun j hj => by
        rw [m2, m1, show src + 1 + j = src + (j + 1) by omega, hlies (j + 1) (by simp at hj ⊢; omega)]
        rfl)
    refine ⟨c3, ?_, p3, ?_, by rw [m3, m2, m1]⟩
    · have := goes_trans (goes_trans g1 g2) g3
      rw [show 5 * (b :: text).length + 4 = 4 + 1 + (5 * text.length + 4) by simp; omega]
      exact this
    · rw [r3, List.length_cons]
      omega

/-- **C107.** A loop whose length depends on what is in memory: `5 * n + 4` step commands at the routine take r1 past the zero that
ends a text of `n` bytes, for every text below 2 ^ 31, and change nothing in memory. -/
theorem text_end (python : Python) {w : World} {c : Core} (hs : Shows w.cpu c) (hm : MemOK w.cpu.mem) {x src : Nat} {text : List Nat}
    (htext : ∀ b ∈ text, b ≠ 0 ∧ b < 256) (hlow : src + (text.length + 1) < 2 ^ 31)
    (hmap : ∀ j, j ≤ text.length → Inside w.cpu.mem ((src + j : Nat) : Int) 1) (hsrc : Lies (flat w.cpu.mem) src (text ++ [0]))
    (heven : x % 2 = 0) (htop : x + 12 < 2 ^ 32) (hin : Inside w.cpu.mem x 12) (hcode : Lies (flat w.cpu.mem) x endLoop)
    (hpc : w.cpu.regs (some 15) = some (x : Int)) (h1 : w.cpu.regs (some 1) = some (src : Int))
    (h7 : w.cpu.regs (some 7) = some (x : Int) ∨ w.cpu.regs (some 7) = some ((x + 1 : Nat) : Int))
    {cmds : List Str} (hl : cmds.length = 5 * text.length + 4) (hc : ∀ cmd ∈ cmds, ∃ name ∈ stepNames, ∃ args, Says cmd name args) :
    ∃ s' ls, processCommands python cmds w = (.ok (), ⟨s', w.out ++ ls⟩) ∧ ls.length = 5 * text.length + 4 ∧
      s'.regs (some 1) = some ((src + (text.length + 1) : Nat) : Int) ∧ s'.regs (some 15) = some ((x + 10 : Nat) : Int) ∧
      flat s'.mem = flat w.cpu.mem := by
  have reg : ∀ k ∈ coreIndices, ∀ {v : Nat}, w.cpu.regs (some k) = some (v : Int) → (c.reg k).toNat = v := fun k hk v h => by
    rw [hs.1 k hk] at h
    exact Int.ofNat.inj (Option.some.inj h)
  have hready : Ready w.cpu.mem c x endLoop := ⟨by rw [← hs.2]; exact hcode, hin, heven, htop, reg 15 (by decide) hpc,
    back heven (h7.imp (reg 7 (by decide)) (reg 7 (by decide)))⟩
  obtain ⟨d, hg, hd, h1', hmem⟩ := end_loop text src hready (reg 1 (by decide) h1) htext hlow hmap (by rw [← hs.2]; exact hsrc)
  obtain ⟨s', ls, e1, e2, e3, -⟩ := steps_partial python hg (w := w) (cmds := cmds) rfl hs hm (by omega) hc
  refine ⟨s', ls, e1, e2, ?_, ?_, ?_⟩
  · rw [e3.1 1 (by decide), h1']
  · rw [e3.1 15 (by decide), hd]
  · rw [e3.2, hmem, hs.2]

/-- Both routines in one memory, and a text at 0x18. -/
def loopsMem : List Region := [⟨0, 0x1f, factLoop ++ [0, 0] ++ endLoop ++ [0x68, 0x69, 0x21, 0, 1, 1, 1, 1]⟩]

/-- The factorial of 13, which does not fit in a register, by 51 steps; and the end of the text, by 19. -/
example (python : Python) {s : Machine} {c : Core} (hs : Shows s c) (hm : s.mem = loopsMem) :
    (s.regs (some 15) = some 0 → s.regs (some 0) = some 13 → s.regs (some 1) = some 1 → s.regs (some 7) = some 1 →
      ∃ s' ls, processCommands python (List.replicate 51 (c! "step")) ⟨s, []⟩ = (.ok (), ⟨s', ls⟩) ∧ s'.regs (some 1) = some 1932053504) ∧
    (s.regs (some 15) = some 12 → s.regs (some 1) = some 0x18 → s.regs (some 7) = some 13 →
      ∃ s' ls, processCommands python (List.replicate 19 (c! "step")) ⟨s, []⟩ = (.ok (), ⟨s', ls⟩) ∧ s'.regs (some 1) = some 0x1c) := by
  have hok : MemOK s.mem := by
    rw [hm]
    refine ⟨?_, List.pairwise_singleton _ _⟩
    intro m h
    simp only [loopsMem, List.mem_cons, List.not_mem_nil, or_false] at h
    subst h
    exact ⟨by decide, by decide⟩
  have hin : Inside s.mem 0 32 := by
    rw [hm]
    exact ⟨_, List.mem_cons_self, by decide, by decide⟩
  have hstep : ∀ n, ∀ cmd ∈ List.replicate n (c! "step"), ∃ name ∈ stepNames, ∃ args, Says cmd name args := fun n cmd h => by
    rw [List.eq_of_mem_replicate h]
    exact ⟨_, by decide, _, says_step⟩
  constructor
  · intro hpc h0 h1 h7
    have hcode : Lies (flat s.mem) 0 factLoop := by
      rw [hm]
      unfold Lies
      decide +kernel
    obtain ⟨s', ls, e1, -, e2, -⟩ := factorial python (w := ⟨s, []⟩) hs hok (x := 0) (n := 13) (by decide) (by decide) (by decide) (by decide)
      (inside_part hin (by decide) (by decide)) hcode hpc h0 h1 (.inr h7) (cmds := List.replicate 51 (c! "step")) (by decide) (hstep 51)
    exact ⟨s', ls, by simpa using e1, e2⟩
  · intro hpc h1 h7
    have hcode : Lies (flat s.mem) 12 endLoop := by
      rw [hm]
      unfold Lies
      decide +kernel
    have htext : Lies (flat s.mem) 0x18 ([0x68, 0x69, 0x21] ++ [0]) := by
      rw [hm]
      unfold Lies
      decide +kernel
    obtain ⟨s', ls, e1, -, e2, -⟩ := text_end python (w := ⟨s, []⟩) hs hok (x := 12) (src := 0x18) (text := [0x68, 0x69, 0x21]) (by decide) (by decide)
      (fun j hj => inside_part hin (by omega) (by simp at hj; omega)) htext (by decide) (by decide)
      (inside_part hin (by decide) (by decide)) hcode hpc h1 (.inr h7) (cmds := List.replicate 19 (c! "step")) (by decide) (hstep 19)
    exact ⟨s', ls, by simpa using e1, e2⟩

end C107
end Verif
