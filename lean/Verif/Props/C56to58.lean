import Verif.Props.C52to55

/-!
# C56 to C58: extension, byte reversal, PC-relative addresses, system instructions
-/

namespace Verif
open BS Thumb

namespace C56

/-- **C56.** SXTB, SXTH, UXTB and UXTH, with any rotation: the low 8 or 16 bits of the
rotated register are extended. -/
theorem extend_right {sgn : Bool} {width rotation d m : Nat} {i : Instr} {s : Machine} {c : Core}
    (h : (Act.extend sgn width rotation d m).Of i) (hv : (Act.extend sgn width rotation d m).Valid) (hd : d < 15) (hm : m < 15)
    (hs : Shows s c) :
    EndsIn i s ((c.set d (extended sgn width ((c.reg m).rotateRight rotation).toNat)).next i.size) := by
  obtain ⟨a, rfl, rfl, ha⟩ := hs.arm
  have := ends_of h hv (a := a) rfl
  rw [afterWrite_core _ _ hd, core_result hd] at this
  exact this

/-- **C56.** What that is: the number in the low 8 or 16 bits, unsigned or signed. -/
theorem extended_value (x : Word) :
    (extended false 8 x.toNat).toNat = x.toNat % 256 ∧ (extended false 16 x.toNat).toNat = x.toNat % 65536 ∧
    (extended true 8 x.toNat).toInt = (if x.toNat % 256 < 128 then (x.toNat % 256 : Int) else x.toNat % 256 - 256) ∧
    (extended true 16 x.toNat).toInt = (if x.toNat % 65536 < 32768 then (x.toNat % 65536 : Int) else x.toNat % 65536 - 65536) := by
  have h8 := (C52.values (x.toNat % 2 ^ 8)).1 (Nat.mod_lt _ (by decide))
  have h16 := (C52.values (x.toNat % 2 ^ 16)).2.1 (Nat.mod_lt _ (by decide))
  simp only [extended_mod] at h8 h16
  rw [h8.1, h8.2, h16.1, h16.2, BitVec.toNat_ofNat, BitVec.toNat_ofNat]
  refine ⟨by omega, by omega, ?_, ?_⟩ <;> split <;> omega

/-- **C56.** REV, REV16 and REVSH. -/
theorem reverse_right {kind : RevKind} {d m : Nat} {i : Instr} {s : Machine} {c : Core} (h : (Act.rev kind d m).Of i) (hd : d < 15)
    (hm : m < 15) (hs : Shows s c) :
    EndsIn i s ((c.set d (match kind with
      | .rev => swap32 (c.reg m)
      | .rev16 => swap16 (c.reg m)
      | .revsh => swapsh (c.reg m))).next i.size) := by
  obtain ⟨a, rfl, rfl, ha⟩ := hs.arm
  have := ends_of h trivial (a := a) rfl
  rw [afterWrite_core _ _ hd, core_result hd] at this
  cases kind <;> exact this

/-- Byte `j` of a word. -/
def byte (x : Word) (j : Nat) : Nat := x.toNat / 256 ^ j % 256

theorem append_nat (a b c d : BitVec 8) : (a ++ b ++ c ++ d).toNat = a.toNat * 16777216 + b.toNat * 65536 + c.toNat * 256 + d.toNat := by
  simp only [BitVec.toNat_append]
  rw [← Nat.shiftLeft_add_eq_or_of_lt d.isLt, ← Nat.shiftLeft_add_eq_or_of_lt c.isLt, ← Nat.shiftLeft_add_eq_or_of_lt b.isLt]
  simp only [Nat.shiftLeft_eq]
  omega

theorem digits (a b c d : Nat) (ha : a < 256) (hb : b < 256) (hc : c < 256) (hd : d < 256) (v : Nat)
    (h : v = a * 16777216 + b * 65536 + c * 256 + d) :
    v / 256 ^ 0 % 256 = d ∧ v / 256 ^ 1 % 256 = c ∧ v / 256 ^ 2 % 256 = b ∧ v / 256 ^ 3 % 256 = a := by
  subst h
  refine ⟨?_, ?_, ?_, ?_⟩
  · omega
  · show _ / 256 % 256 = _
    omega
  · show _ / 65536 % 256 = _
    omega
  · show _ / 16777216 % 256 = _
    omega

theorem byte_append (a b c d : BitVec 8) :
    byte (a ++ b ++ c ++ d) 0 = d.toNat ∧ byte (a ++ b ++ c ++ d) 1 = c.toNat ∧ byte (a ++ b ++ c ++ d) 2 = b.toNat ∧
    byte (a ++ b ++ c ++ d) 3 = a.toNat := digits _ _ _ _ a.isLt b.isLt c.isLt d.isLt _ (append_nat a b c d)

theorem extract_byte (x : Word) (j : Nat) : (x.extractLsb' (8 * j) 8).toNat = byte x j := by
  rw [BitVec.extractLsb'_toNat, Nat.shiftRight_eq_div_pow, Nat.pow_mul]
  rfl

theorem of_bytes (x : Word) : x.toNat = byte x 3 * 16777216 + byte x 2 * 65536 + byte x 1 * 256 + byte x 0 := by
  have hx := x.isLt
  have e0 : byte x 0 = x.toNat % 256 := by unfold byte; omega
  have e1 : byte x 1 = x.toNat / 256 % 256 := rfl
  have e2 : byte x 2 = x.toNat / 65536 % 256 := rfl
  have e3 : byte x 3 = x.toNat / 16777216 % 256 := rfl
  omega

theorem bytes_ext {x y : Word} (h : ∀ j, j < 4 → byte x j = byte y j) : x = y := by
  apply BitVec.eq_of_toNat_eq
  rw [of_bytes x, of_bytes y, h 0 (by omega), h 1 (by omega), h 2 (by omega), h 3 (by omega)]

/-- **C56.** REV puts byte `j` in the place of byte `3 - j`. -/
theorem rev_bytes (x : Word) : ∀ j, j < 4 → byte (swap32 x) j = byte x (3 - j) := by
  intro j hj
  obtain ⟨h0, h1, h2, h3⟩ := byte_append (x.extractLsb' 0 8) (x.extractLsb' 8 8) (x.extractLsb' 16 8) (x.extractLsb' 24 8)
  have : j = 0 ∨ j = 1 ∨ j = 2 ∨ j = 3 := by omega
  rcases this with rfl | rfl | rfl | rfl
  · exact h0.trans (extract_byte x 3)
  · exact h1.trans (extract_byte x 2)
  · exact h2.trans (extract_byte x 1)
  · exact h3.trans (extract_byte x 0)

/-- **C56.** REV16 swaps bytes 0 and 1, and bytes 2 and 3. -/
theorem rev16_bytes (x : Word) : ∀ j, j < 4 → byte (swap16 x) j = byte x (if j % 2 = 0 then j + 1 else j - 1) := by
  intro j hj
  obtain ⟨h0, h1, h2, h3⟩ := byte_append (x.extractLsb' 16 8) (x.extractLsb' 24 8) (x.extractLsb' 0 8) (x.extractLsb' 8 8)
  have : j = 0 ∨ j = 1 ∨ j = 2 ∨ j = 3 := by omega
  rcases this with rfl | rfl | rfl | rfl
  · exact h0.trans (extract_byte x 1)
  · exact h1.trans (extract_byte x 0)
  · exact h2.trans (extract_byte x 3)
  · exact h3.trans (extract_byte x 2)

/-- **C56.** REVSH swaps bytes 0 and 1 and extends the sign of the result. -/
theorem revsh_value (x : Word) : (swapsh x).toInt = (if byte x 0 < 128 then ((256 * byte x 0 + byte x 1 : Nat) : Int)
    else ((256 * byte x 0 + byte x 1 : Nat) : Int) - 65536) := by
  unfold swapsh
  have e : (x.extractLsb' 0 8 ++ x.extractLsb' 8 8 : BitVec 16).toNat = 256 * byte x 0 + byte x 1 := by
    rw [BitVec.toNat_append, ← Nat.shiftLeft_add_eq_or_of_lt (x.extractLsb' 8 8).isLt, Nat.shiftLeft_eq]
    have h0 : (x.extractLsb' 0 8).toNat = byte x 0 := extract_byte x 0
    have h1 : (x.extractLsb' 8 8).toNat = byte x 1 := extract_byte x 1
    rw [h0, h1]
    omega
  have b0 : byte x 0 < 256 := Nat.mod_lt _ (by decide)
  have b1 : byte x 1 < 256 := Nat.mod_lt _ (by decide)
  rw [BitVec.toInt_signExtend_of_le (by omega), BitVec.toInt_eq_toNat_cond, e]
  generalize byte x 0 = b at *
  generalize byte x 1 = b' at *
  split <;> split <;> omega

/-- **C56.** REV and REV16 are their own inverses. -/
theorem own_inverse (x : Word) : swap32 (swap32 x) = x ∧ swap16 (swap16 x) = x := by
  constructor
  · apply bytes_ext
    intro j hj
    rw [rev_bytes _ j hj, rev_bytes _ _ (by omega), show 3 - (3 - j) = j by omega]
  · apply bytes_ext
    intro j hj
    rw [rev16_bytes _ j hj, rev16_bytes _ _ (by split <;> omega)]
    congr 1
    split <;> split <;> omega

/-- `sxtb r0, r1`, `uxth r0, r1`, `rev r0, r1`, `rev16 r0, r1`, `revsh r0, r1`. -/
example :
    ranRegs [0x48, 0xb2] (sample [(1, 0x123456f8)]) [0, 15] = some [some 0xfffffff8, some 2] ∧
    ranRegs [0x88, 0xb2] (sample [(1, 0x1234f6f8)]) [0, 15] = some [some 0xf6f8, some 2] ∧
    ranRegs [0x08, 0xba] (sample [(1, 0x12345678)]) [0, 15] = some [some 0x78563412, some 2] ∧
    ranRegs [0x48, 0xba] (sample [(1, 0x12345678)]) [0, 15] = some [some 0x34127856, some 2] ∧
    ranRegs [0xc8, 0xba] (sample [(1, 0x12345698)]) [0, 15] = some [some 0xffff9856, some 2] := by
  refine ⟨?_, ?_, ?_, ?_, ?_⟩ <;> unfold ranRegs ran <;> rw [trees, decoders_eq] <;> decide +kernel

end C56

namespace C57

/-- The address of a PC-relative operand: from the address of the instruction plus 4,
rounded down to a multiple of 4. -/
def address (pc : Word) (add : Bool) (imm : Word) : Word :=
  let base := BitVec.ofNat 32 ((pc + 4#32).toNat / 4 * 4)
  if add then base + imm else base - imm

theorem align4_eq (x : Word) : align4 x = BitVec.ofNat 32 (x.toNat / 4 * 4) := by
  have hx := x.isLt
  have : x = BitVec.ofNat 32 (x.toNat / 4 * 4) + BitVec.ofNat 32 (x.toNat % 4) := by
    apply BitVec.eq_of_toNat_eq
    rw [BitVec.toNat_add, BitVec.toNat_ofNat, BitVec.toNat_ofNat]
    omega
  unfold align4
  apply BitVec.eq_of_getLsbD_eq
  intro k hk
  rw [BitVec.getLsbD_and]
  have e : (~~~3#32).getLsbD k = decide (2 ≤ k) := by
    have : ∀ k : Fin 32, (~~~3#32).getLsbD k = decide (2 ≤ k.val) := by decide
    exact this ⟨k, hk⟩
  rw [e, BitVec.getLsbD_ofNat, decide_eq_true hk, Bool.true_and]
  unfold BitVec.getLsbD
  rw [show x.toNat / 4 * 4 = (x.toNat / 2 ^ 2) * 2 ^ 2 from rfl, Nat.testBit_mul_two_pow]
  by_cases h2 : 2 ≤ k
  · rw [decide_eq_true h2, Bool.and_true, Bool.true_and, Nat.testBit_div_two_pow, Nat.sub_add_cancel h2]
  · rw [decide_eq_false h2, Bool.and_false, Bool.false_and]

theorem address_eq (c : Core) (add : Bool) (imm : Word) :
    (if add then align4 (c.rd 15) + imm else align4 (c.rd 15) - imm) = address (c.reg 15) add imm := by
  rw [align4_eq, core_rd15]; rfl

/-- **C57.** ADR. -/
theorem adr_right {add : Bool} {d : Nat} {imm : Word} {i : Instr} {s : Machine} {c : Core} (h : (Act.adr add d imm).Of i)
    (hd : d < 15) (hs : Shows s c) : EndsIn i s ((c.set d (address (c.reg 15) add imm)).next i.size) := by
  obtain ⟨a, rfl, rfl, ha⟩ := hs.arm
  have := ends_of h trivial (a := a) rfl
  rw [afterWrite_core _ _ hd, core_result hd] at this
  rw [← address_eq]
  exact this

/-- **C57.** LDR (literal) and its variants, inside memory. Missing from the full claim:
addresses that are not all in one region (`literal_unmapped`, `literal_past_end`), and PC as
destination. -/
theorem literal_right_partial {sz t : Nat} {sgn add : Bool} {imm : Word} {i : Instr} {s : Machine} {c : Core}
    (h : (Act.loadLit sz sgn add t imm).Of i) (hv : SizeOK sz) (ht : t < 15) (hs : Shows s c) (hm : MemOK s.mem)
    (hin : Inside s.mem (address (c.reg 15) add imm).toNat (sz / 8)) :
    EndsIn i s ((c.set t (extended sgn sz (c.read (address (c.reg 15) add imm) (sz / 8)))).next i.size) := by
  have := does_right h hv ht hs hm (by show Inside _ _ _; rw [address_eq]; exact hin)
  unfold Does at this
  simp only [Act.run, core_result ht] at this
  rw [address_eq] at this
  exact this

/-- **C57.** LDR (literal) from outside memory loads zero. -/
theorem literal_unmapped {sz t : Nat} {sgn add : Bool} {imm : Word} {i : Instr} {s : Machine} {c : Core}
    (h : (Act.loadLit sz sgn add t imm).Of i) (hv : SizeOK sz) (ht : t < 15) (hs : Shows s c)
    (hu : C25.Unmapped s.mem (address (c.reg 15) add imm).toNat) : EndsIn i s ((c.set t 0#32).next i.size) := by
  obtain ⟨a, rfl, rfl, ha⟩ := hs.arm
  rw [← address_eq] at hu
  have he : (Act.loadLit sz sgn add t imm).effect i.size a = (.ok (), a.afterWrite i.size t 0#32) := by
    simp only [Act.effect, Arm.loadTo]
    have hpk := peek_unmapped (mem := a.mem) hu (sz / 8)
    rw [show a.core.rd 15 = a.reg 15 + 4#32 from rfl] at hpk
    rw [hpk]
    have : extended sgn sz 0 = 0#32 := by
      unfold extended
      rcases hv with rfl | rfl | rfl <;> cases sgn <;> decide
    show (Except.ok (), a.afterWrite i.size t (extended sgn sz 0)) = _
    rw [this]
  have := ends_of h hv he
  rw [afterWrite_core _ _ ht, core_result ht] at this
  exact this

/-- **C57.** LDR (literal) across the end of a region raises `IndexError` and changes
nothing. -/
theorem literal_past_end {sz t : Nat} {sgn add : Bool} {imm : Word} {i : Instr} {s : Machine} {c : Core}
    (h : (Act.loadLit sz sgn add t imm).Of i) (hv : SizeOK sz) (hs : Shows s c) (hm : MemOK s.mem)
    (hp : Past s.mem (address (c.reg 15) add imm).toNat (sz / 8)) : i.eval s = (.error .indexError, s) := by
  obtain ⟨a, rfl, rfl, ha⟩ := hs.arm
  rw [← address_eq] at hp
  rw [eval_exact h hv]
  unfold SizeOK at hv
  simp only [Act.effect, Arm.loadTo]
  have := peek_past (mem := a.mem) hm (by omega) hp
  have e : a.core.rd 15 = a.reg 15 + 4#32 := rfl
  rw [e] at this
  rw [this]
  rfl

/-- `adr r0, #8` at an address that is 2 modulo 4, `ldr r0, [pc, #4]` at 0xffa and at 0xffc;
`adr.w r1, #-5`. -/
example :
    ranRegs [0x02, 0xa0] (sample [(15, 0x1002)]) [0, 15] = some [some 0x100c, some 0x1004] ∧
    ranRegs [0x01, 0x48] (sample [(15, 0xffa)] C52.exRam) [0, 15] = some [some 0x84832211, some 0xffc] ∧
    ranRegs [0x01, 0x48] (sample [(15, 0xffc)] C52.exRam) [0, 15] = some [some 0x88776655, some 0xffe] ∧
    ranRegs [0xaf, 0xf2, 0x05, 0x01] (sample [(15, 0x1002)]) [1, 15] = some [some 0xfff, some 0x1006] := by
  refine ⟨?_, ?_, ?_, ?_⟩ <;> unfold ranRegs ran <;> rw [trees, decoders_eq] <;> decide +kernel

end C57

namespace C58

/-- The value CPS writes: 0 to enable interrupts, 1 to disable them. -/
def maskValue (enable : Bool) : Word := if enable then 0#32 else 1#32

/-- **C58.** CPS exactly: it writes PRIMASK (index -1) and FAULTMASK (index -3) as named,
whether privileged or not. -/
theorem cps_exact {enable pri fault : Bool} {i : Instr} {s : Machine} {c : Core} (h : (Act.cps enable pri fault).Of i)
    (hs : Shows s c) :
    ∃ c1, EndsIn i s c1 ∧ c1.reg (-1) = (if pri then maskValue enable else c.reg (-1)) ∧
      c1.reg (-3) = (if fault then maskValue enable else c.reg (-3)) ∧ c1.reg 15 = c.reg 15 + BitVec.ofNat 32 i.size ∧
      c1.mem = c.mem ∧ ∀ k : Int, k ≠ -1 → k ≠ -3 → k ≠ 15 → c1.reg k = c.reg k := by
  obtain ⟨a, rfl, rfl, ha⟩ := hs.arm
  refine ⟨_, ends_of h trivial (a := a) rfl, ?_⟩
  cases enable <;> cases pri <;> cases fault <;>
    refine ⟨rfl, rfl, rfl, rfl, fun k h1 h2 h3 => ?_⟩ <;>
    simp [Arm.core, Arm.next, Arm.cps, Arm.set, h1, h2, h3]

/-- **C58.** CPS does what the manual says if and only if the processor is privileged or the
named masks have the value already. -/
theorem cps_right_iff_partial {enable pri fault : Bool} {i : Instr} {s : Machine} {c : Core} (h : (Act.cps enable pri fault).Of i)
    (hs : Shows s c) (hm : MemOK s.mem) :
    Does i (.cps enable pri fault) s c ↔ c.privileged = true ∨
      ((pri = true → c.reg (-1) = maskValue enable) ∧ (fault = true → c.reg (-3) = maskValue enable)) := by
  constructor
  · intro hd
    cases hpr : c.privileged
    · right
      obtain ⟨c1, h1, h2, h3, -⟩ := cps_exact h hs
      have hu := (ends_unique h1 hd).1
      have e : (Act.cps enable pri fault).run i.size c = c.next i.size := by
        simp only [Act.run, hpr, Bool.and_false, Bool.false_eq_true, if_false]
      rw [e] at hu
      have u1 := hu (-1) (by decide)
      have u3 := hu (-3) (by decide)
      rw [next_reg _ _ (by decide)] at u1 u3
      refine ⟨fun hp => ?_, fun hf => ?_⟩
      · rw [h2, if_pos hp] at u1; exact u1.symm
      · rw [h3, if_pos hf] at u3; exact u3.symm
    · exact .inl rfl
  · intro hc
    by_cases hpr : c.privileged = true
    · exact does_right h trivial trivial hs hm (.inl hpr)
    · have hc := hc.resolve_left hpr
      obtain ⟨a, rfl, rfl, ha⟩ := hs.arm
      have hpr : a.core.privileged = false := by simpa using hpr
      refine does_of h trivial rfl ?_
      simp only [Act.run, hpr, Bool.and_false, Bool.false_eq_true, if_false]
      rw [next_core]
      congr 1
      have e : ∀ (k : Int) (b : Arm), (k = -1 ∨ k = -3) → b.reg k = maskValue enable → b.set k (maskValue enable) = b := by
        intro k b hk hb
        unfold Arm.set
        have : (fun j => if j = k ∨ (k = 13 ∧ j = 17) ∨ (k = 17 ∧ j = 13) then keepBits k (maskValue enable) else b.reg j) = b.reg := by
          funext j
          split
          · have : j = k := by omega
            subst this
            rw [hb]
            rcases hk with rfl | rfl <;> cases enable <;> decide
          · rfl
        rw [this]
      have hcps : a.cps enable pri fault = a := by
        unfold Arm.cps
        rw [show (if enable = true then 0#32 else 1#32) = maskValue enable from rfl]
        have e1 : (if pri = true then a.set (-1) (maskValue enable) else a) = a := by
          split
          · exact e _ _ (.inl rfl) (hc.1 (by assumption))
          · rfl
        simp only [e1]
        split
        · exact e _ _ (.inr rfl) (hc.2 (by assumption))
        · rfl
      rw [hcps]

/-- **C58.** MRS of the special registers other than the combinations of xPSR (SYSm 8, 9, 16
to 20: MSP, PSP, PRIMASK, BASEPRI, BASEPRI_MAX, FAULTMASK, CONTROL, and the reserved
numbers, which read as zero). -/
theorem mrs_right {d : Nat} {sysm : BitVec 8} {i : Instr} {s : Machine} {c : Core} (h : (Act.mrs d sysm).Of i) (hd : d < 15)
    (hs : Shows s c) (hm : MemOK s.mem) (h8 : 8 ≤ sysm.toNat) :
    EndsIn i s ((c.set d (c.special sysm.toNat)).next i.size) := by
  have := does_right h trivial hd hs hm ⟨by omega, by omega⟩
  unfold Does at this
  simp only [Act.run, core_result hd] at this
  exact this

/-- **C58.** MRS of a combination of xPSR that includes APSR (SYSm 0 to 3) raises `TypeError`
and changes nothing. -/
theorem mrs_apsr_fails {d : Nat} {sysm : BitVec 8} {i : Instr} {s : Machine} {c : Core} (h : (Act.mrs d sysm).Of i)
    (hs : Shows s c) (h4 : sysm.toNat < 4) : i.eval s = (.error .typeError, s) := by
  obtain ⟨a, rfl, rfl, ha⟩ := hs.arm
  rw [eval_exact h trivial]
  simp only [Act.effect, Arm.mrs, Arm.special]
  rw [if_pos (by omega), if_pos (by omega)]
  rfl

/-- **C58.** MRS of IPSR (SYSm 5, and 7, IEPSR) reads only the low six bits of the exception
number; of EPSR (4, 6) zero, as it should. -/
theorem mrs_ipsr {d : Nat} {sysm : BitVec 8} {i : Instr} {s : Machine} {c : Core} (h : (Act.mrs d sysm).Of i) (hd : d < 15)
    (hs : Shows s c) (h4 : 4 ≤ sysm.toNat) (h8 : sysm.toNat < 8) :
    EndsIn i s ((c.set d (if sysm.toNat % 2 = 1 then c.reg 16 &&& 0x3f#32 else 0#32)).next i.size) := by
  obtain ⟨a, rfl, rfl, ha⟩ := hs.arm
  have he : (Act.mrs d sysm).effect i.size a =
      (.ok (), a.afterWrite i.size d (if sysm.toNat % 2 = 1 then a.reg 16 &&& 0x3f#32 else 0#32)) := by
    simp only [Act.effect, Arm.mrs, Arm.special]
    rw [if_pos (by omega), if_neg (by omega)]
  have := ends_of h trivial he
  rw [afterWrite_core _ _ hd, core_result hd] at this
  exact this

/-- **C58.** MRS does what the manual says if and only if APSR is not included and, for IPSR
and IEPSR, the exception number is below 64. -/
theorem mrs_right_iff_partial {d : Nat} {sysm : BitVec 8} {i : Instr} {s : Machine} {c : Core} (h : (Act.mrs d sysm).Of i)
    (hd : d < 15) (hs : Shows s c) (hm : MemOK s.mem) :
    Does i (.mrs d sysm) s c ↔ ¬ (sysm.toNat < 4) ∧ ((sysm.toNat = 5 ∨ sysm.toNat = 7) → c.reg 16 &&& 0x1c0#32 = 0#32) := by
  constructor
  · intro hdo
    have h4 : ¬ sysm.toNat < 4 := by
      intro h4
      obtain ⟨i', s', e, -⟩ := hdo
      rw [mrs_apsr_fails h hs h4] at e
      cases e
    refine ⟨h4, fun h57 => ?_⟩
    have h1 := mrs_ipsr h hd hs (by omega) (by omega)
    have := (ends_unique h1 hdo).1 d (core_mem (by omega))
    simp only [Act.run] at this
    rw [result_reg hd, next_reg _ _ (by omega), core_reg_set, if_pos (.inl rfl), if_pos (by omega)] at this
    have hsp : c.special sysm.toNat = c.reg 16 &&& 0x1ff#32 := by
      unfold Core.special
      rw [if_pos (by omega), if_pos (by omega), if_neg (by omega)]
      simp
    rw [hsp] at this
    generalize c.reg 16 = x at this
    apply BitVec.eq_of_getLsbD_eq
    intro k hk
    have hb := congrArg (fun y => BitVec.getLsbD y k) this
    have hkeep : ∀ y : Word, 6 ≤ k → (keepBits d y).getLsbD k = y.getLsbD k := by
      intro y h6
      unfold keepBits
      rw [if_neg (by omega), if_neg (by omega)]
      split
      · rw [BitVec.getLsbD_and]
        have : ∀ k : Fin 32, 6 ≤ k.val → (0xfffffffc#32).getLsbD k = true := by decide
        rw [this ⟨k, hk⟩ h6, Bool.and_true]
      · rfl
    rw [BitVec.getLsbD_and]
    have t1 : ∀ k : Fin 32, (0x1c0#32).getLsbD k = (decide (6 ≤ k.val) && (0x1ff#32).getLsbD k) := by decide
    have t2 : ∀ k : Fin 32, (0x3f#32).getLsbD k = !decide (6 ≤ k.val) := by decide
    have t1 : (0x1c0#32).getLsbD k = (decide (6 ≤ k) && (0x1ff#32).getLsbD k) := t1 ⟨k, hk⟩
    have t2 : (0x3f#32).getLsbD k = !decide (6 ≤ k) := t2 ⟨k, hk⟩
    rw [t1]
    by_cases h6 : 6 ≤ k
    · rw [hkeep _ h6, hkeep _ h6, BitVec.getLsbD_and, BitVec.getLsbD_and, t2, decide_eq_true h6] at hb
      rw [decide_eq_true h6, Bool.true_and, ← hb]
      simp
    · rw [decide_eq_false h6]
      simp
  · intro ⟨h4, h57⟩
    exact does_right h trivial hd hs hm ⟨by omega, h57⟩

/-- **C58.** MSR exactly: it only goes on to the next instruction. -/
theorem msr_exact {n : Nat} {mask : BitVec 2} {sysm : BitVec 8} {i : Instr} {s : Machine} {c : Core}
    (h : (Act.msr n mask sysm).Of i) (hs : Shows s c) : EndsIn i s (c.next i.size) := by
  obtain ⟨a, rfl, rfl, ha⟩ := hs.arm
  exact ends_of h trivial (a := a) rfl

theorem writeSpecial_pc (c : Core) (mask sysm : Nat) (v : Word) : (c.writeSpecial mask sysm v).reg 15 = c.reg 15 := by
  have e : ∀ (k : Int) (v : Word), k ≠ 15 → (c.set k v).reg 15 = c.reg 15 := fun k v hk => by
    rw [core_reg_set, if_neg (by omega)]
  unfold Core.writeSpecial
  repeat' split
  all_goals first | rfl | exact e _ _ (by decide)

/-- **C58.** MSR does what the manual says if and only if that is to change nothing. -/
theorem msr_right_iff_partial {n : Nat} {mask : BitVec 2} {sysm : BitVec 8} {i : Instr} {s : Machine} {c : Core}
    (h : (Act.msr n mask sysm).Of i) (hs : Shows s c) :
    Does i (.msr n mask sysm) s c ↔ ∀ k ∈ coreIndices, (c.writeSpecial mask.toNat sysm.toNat (c.reg n)).reg k = c.reg k := by
  have h1 := msr_exact h hs
  generalize hw : c.writeSpecial mask.toNat sysm.toNat (c.reg n) = w
  have hpc : w.reg 15 = c.reg 15 := by rw [← hw]; exact writeSpecial_pc _ _ _ _
  have hmem : w.mem = c.mem := by
    rw [← hw]
    unfold Core.writeSpecial
    repeat' split
    all_goals rfl
  have hrun : (Act.msr n mask sysm).run i.size c = w.next i.size := by simp only [Act.run, hw]
  constructor
  · intro hd k hk
    have := (ends_unique h1 hd).1 k hk
    rw [hrun] at this
    by_cases h15 : k = 15
    · rw [h15, hpc]
    · rw [next_reg _ _ h15, next_reg _ _ h15] at this
      exact this.symm
  · intro hall
    obtain ⟨i', s', e1, e2⟩ := h1
    refine ⟨i', s', e1, ?_, ?_⟩
    · intro k hk
      rw [e2.1 k hk, hrun]
      by_cases h15 : k = 15
      · subst h15
        unfold Core.next
        rw [core_reg_set, core_reg_set, if_pos (.inl rfl), if_pos (.inl rfl), hpc]
      · rw [next_reg _ _ h15, next_reg _ _ h15, hall k hk]
    · rw [e2.2, hrun]
      exact hmem.symm

/-- `cpsid i` unprivileged, `cpsie f`, `mrs r0, PRIMASK`, `mrs r0, CONTROL`, `mrs r0, APSR`,
`mrs r0, IPSR` with exception 64+5, `msr PRIMASK, r0`. -/
example :
    ranRegs [0x72, 0xb6] (sample [(-4, 1)]) [-1, -3, 15] = some [some 1, some 0, some 2] ∧
    ranRegs [0x61, 0xb6] (sample [(-1, 1), (-3, 1)]) [-1, -3, 15] = some [some 1, some 0, some 2] ∧
    ranRegs [0xef, 0xf3, 0x10, 0x80] (sample [(-1, 1)]) [0, 15] = some [some 1, some 4] ∧
    ranRegs [0xef, 0xf3, 0x14, 0x80] (sample [(-4, 7)]) [0, 15] = some [some 3, some 4] ∧
    ranRegs [0xef, 0xf3, 0x00, 0x80] (sample [(16, 0x80000000)]) [0] = none ∧
    ranRegs [0xef, 0xf3, 0x05, 0x80] (sample [(16, 0x45)]) [0, 15] = some [some 5, some 4] ∧
    ranRegs [0x80, 0xf3, 0x10, 0x88] (sample [(0, 1)]) [-1, 15] = some [some 0, some 4] := by
  refine ⟨?_, ?_, ?_, ?_, ?_, ?_, ?_⟩ <;> unfold ranRegs ran <;> rw [trees, decoders_eq] <;> decide +kernel

end C58

end Verif
