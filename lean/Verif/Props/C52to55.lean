import Verif.Lemmas.Words
import Verif.Lemmas.Sample

/-!
# C52 to C55: loads and stores

The theorems are about any object that decoding gives for the action (`Act.Of`, see C38)
and about any state: a machine that `Shows` registers and memory.
-/

namespace Verif
open BS Thumb

namespace C52

/-- **C52.** A load from addresses inside memory does what the manual says: it reads at base
plus offset, extends the value and puts it in the destination. Missing from the full claim:
addresses that are not all in one region (`load_unmapped`, `load_past_end`), where the
emulated memory has no content, and PC as base or destination. -/
theorem load_right_partial {sz t n : Nat} {sgn : Bool} {off : Off} {i : Instr} {s : Machine} {c : Core}
    (h : (Act.load sz sgn t n off).Of i) (hv : (Act.load sz sgn t n off).Valid) (ht : t < 15) (hn : n < 15) (ho : off.NoPc)
    (hs : Shows s c) (hm : MemOK s.mem) (hin : Inside s.mem (c.reg n + off.val c).toNat (sz / 8)) :
    EndsIn i s ((c.set t (extended sgn sz (c.read (c.reg n + off.val c) (sz / 8)))).next i.size) := by
  have := does_right h hv ⟨ht, hn, ho⟩ hs hm hin
  unfold Does at this
  simp only [Act.run, core_rd _ hn, core_result ht] at this
  exact this

/-- **C52.** A load from an address outside memory loads zero. -/
theorem load_unmapped {sz t n : Nat} {sgn : Bool} {off : Off} {i : Instr} {s : Machine} {c : Core}
    (h : (Act.load sz sgn t n off).Of i) (hv : (Act.load sz sgn t n off).Valid) (ht : t < 15) (ho : off.NoPc)
    (hs : Shows s c) (hu : C25.Unmapped s.mem (c.reg n + off.val c).toNat) : EndsIn i s ((c.set t 0#32).next i.size) := by
  obtain ⟨a, rfl, rfl, ha⟩ := hs.arm
  rw [off_val ho, core_reg] at hu
  have he : (Act.load sz sgn t n off).effect i.size a = (.ok (), a.afterWrite i.size t 0#32) := by
    simp only [Act.effect, Arm.loadTo]
    rw [peek_unmapped (mem := a.mem) hu]
    have : extended sgn sz 0 = 0#32 := by
      unfold extended
      rcases hv.1 with rfl | rfl | rfl <;> cases sgn <;> decide
    show (Except.ok (), a.afterWrite i.size t (extended sgn sz 0)) = _
    rw [this]
  have := ends_of h hv he
  rw [afterWrite_core _ _ ht, core_result ht] at this
  exact this

/-- **C52.** A load that starts in a region and reaches past its end raises `IndexError`
and changes nothing. -/
theorem load_past_end {sz t n : Nat} {sgn : Bool} {off : Off} {i : Instr} {s : Machine} {c : Core}
    (h : (Act.load sz sgn t n off).Of i) (hv : (Act.load sz sgn t n off).Valid) (ho : off.NoPc)
    (hs : Shows s c) (hm : MemOK s.mem) (hp : Past s.mem (c.reg n + off.val c).toNat (sz / 8)) :
    i.eval s = (.error .indexError, s) := by
  obtain ⟨a, rfl, rfl, ha⟩ := hs.arm
  rw [off_val ho, core_reg] at hp
  have hz := hv.1
  unfold SizeOK at hz
  rw [eval_exact h hv]
  simp only [Act.effect, Arm.loadTo]
  rw [peek_past (mem := a.mem) hm (by omega) hp]
  rfl

/-- **C52.** A store to addresses inside memory writes the low bytes of the register there.
Missing from the full claim: addresses that are not all in one region (`store_unmapped`,
`store_past_end`), and PC as base or source. -/
theorem store_right_partial {sz t n : Nat} {off : Off} {i : Instr} {s : Machine} {c : Core}
    (h : (Act.store sz t n off).Of i) (hv : (Act.store sz t n off).Valid) (ht : t < 15) (hn : n < 15) (ho : off.NoPc)
    (hs : Shows s c) (hm : MemOK s.mem) (hin : Inside s.mem (c.reg n + off.val c).toNat (sz / 8)) :
    EndsIn i s ((c.write (c.reg n + off.val c) (sz / 8) (c.reg t).toNat).next i.size) := by
  have := does_right h hv ⟨ht, hn, ho⟩ hs hm hin
  unfold Does at this
  simp only [Act.run, core_rd _ hn, core_rd _ ht] at this
  exact this

/-- **C52.** A store to an address outside memory is ignored. -/
theorem store_unmapped {sz t n : Nat} {off : Off} {i : Instr} {s : Machine} {c : Core}
    (h : (Act.store sz t n off).Of i) (hv : (Act.store sz t n off).Valid) (ho : off.NoPc)
    (hs : Shows s c) (hu : C25.Unmapped s.mem (c.reg n + off.val c).toNat) : EndsIn i s (c.next i.size) := by
  obtain ⟨a, rfl, rfl, ha⟩ := hs.arm
  rw [off_val ho, core_reg] at hu
  have := ends_of h hv (a := a) rfl
  rw [next_core] at this
  have e : a.poke (a.reg n + off.got a) (sz / 8) (a.reg t) = a := by
    unfold Arm.poke
    rw [poke_unmapped (mem := a.mem) hu]
  rw [e] at this
  exact this

/-- **C52.** A store that starts in a region and reaches past its end writes only the bytes
up to the end of the region. -/
theorem store_past_end {sz t n : Nat} {off : Off} {i : Instr} {s : Machine} {c : Core}
    (h : (Act.store sz t n off).Of i) (hv : (Act.store sz t n off).Valid) (ho : off.NoPc)
    (hs : Shows s c) (hm : MemOK s.mem) (x : Word) (hx : x = c.reg n + off.val c)
    {m : Region} (hmem : m ∈ s.mem) (h1 : m.start ≤ x.toNat) (h2 : x.toNat ≤ m.stop) :
    EndsIn i s ⟨(c.next i.size).reg, fun y =>
      if (x.toNat : Int) ≤ y ∧ y < x.toNat + (sz / 8 : Nat) ∧ y ≤ m.stop then some (byteOf (c.reg t).toNat (y - x.toNat).toNat)
      else c.mem y⟩ := by
  obtain ⟨a, rfl, rfl, ha⟩ := hs.arm
  rw [off_val ho, core_reg] at hx
  have := ends_of h hv (a := a) rfl
  rw [next_core] at this
  rw [← hx] at this
  have e : (a.poke x (sz / 8) (a.reg t)).core = ⟨a.reg, fun y =>
      if (x.toNat : Int) ≤ y ∧ y < x.toNat + (sz / 8 : Nat) ∧ y ≤ m.stop then some (byteOf (a.reg t).toNat (y - x.toNat).toNat)
      else a.core.mem y⟩ := by
    unfold Arm.core Arm.poke
    congr 1
    funext y
    exact flat_poke_region (mem := a.mem) hm hmem h1 h2 _ _ y
  rw [e] at this
  exact this

/-- **C52.** There are no other cases. -/
theorem cases_complete (mem : List Region) (x : Word) {sz : Nat} (h : SizeOK sz) :
    C25.Unmapped mem x.toNat ∨ Inside mem x.toNat (sz / 8) ∨ Past mem x.toNat (sz / 8) :=
  where_is mem x.toNat (sz / 8) (by unfold SizeOK at h; omega)

/-- **C52.** A load changes no register but the destination, SP's alias MSP, and PC, and no
memory. -/
theorem load_changes (c : Core) (size : Nat) {t : Nat} (ht : t < 15) (v : Word) :
    ((c.set t v).next size).mem = c.mem ∧
    (∀ k : Int, k ≠ t → k ≠ 15 → ¬ (t = 13 ∧ k = 17) → ((c.set t v).next size).reg k = c.reg k) ∧
    (t ≠ 13 → ((c.set t v).next size).reg t = v) := by
  refine ⟨rfl, fun k h1 h2 h3 => ?_, fun h => ?_⟩
  · rw [next_reg _ _ h2, core_reg_set, if_neg (by omega)]
  · rw [next_reg _ _ (by omega), core_reg_set, if_pos (.inl rfl), keepBits_plain (by omega) h]

/-- **C52.** A store changes no register but PC, and only the addressed bytes: byte `j` of
the register, the lowest first, is at address plus `j`. -/
theorem store_changes (c : Core) (size : Nat) (x : Word) (n v : Nat) :
    (∀ k : Int, k ≠ 15 → ((c.write x n v).next size).reg k = c.reg k) ∧
    (∀ y : Int, (y < x.toNat ∨ x.toNat + n ≤ y) → ((c.write x n v).next size).mem y = c.mem y) ∧
    ∀ j : Nat, j < n → ((c.write x n v).next size).mem (x.toNat + j) = some (v / 256 ^ j % 256) := by
  refine ⟨fun k h => next_reg _ _ h, fun y h => ?_, fun j h => ?_⟩
  · show flatWrite c.mem x.toNat n v y = _
    unfold flatWrite
    rw [if_neg (by omega)]
  · show flatWrite c.mem x.toNat n v (x.toNat + j) = _
    unfold flatWrite
    rw [if_pos (by omega), show ((x.toNat : Int) + j - x.toNat).toNat = j by omega]
    unfold byteOf
    congr 1

/-- **C52.** What the loaded value becomes: bytes and halfwords with zeros or with the sign,
words as they are. -/
theorem values (v : Nat) :
    (v < 2 ^ 8 → extended false 8 v = BitVec.ofNat 32 v ∧ (extended true 8 v).toInt = if v < 128 then (v : Int) else v - 256) ∧
    (v < 2 ^ 16 → extended false 16 v = BitVec.ofNat 32 v ∧
      (extended true 16 v).toInt = if v < 32768 then (v : Int) else v - 65536) ∧
    (v < 2 ^ 32 → extended false 32 v = BitVec.ofNat 32 v) := by
  unfold extended
  refine ⟨fun h => ⟨?_, ?_⟩, fun h => ⟨?_, ?_⟩, fun h => ?_⟩
  · apply BitVec.eq_of_toNat_eq
    simp only [Bool.false_eq_true, if_false, BitVec.toNat_setWidth, BitVec.toNat_ofNat]
    omega
  · simp only [if_true]
    rw [BitVec.toInt_signExtend_of_le (by omega), BitVec.toInt_eq_toNat_cond, BitVec.toNat_ofNat]
    split <;> split <;> omega
  · apply BitVec.eq_of_toNat_eq
    simp only [Bool.false_eq_true, if_false, BitVec.toNat_setWidth, BitVec.toNat_ofNat]
    omega
  · simp only [if_true]
    rw [BitVec.toInt_signExtend_of_le (by omega), BitVec.toInt_eq_toNat_cond, BitVec.toNat_ofNat]
    split <;> split <;> omega
  · apply BitVec.eq_of_toNat_eq
    simp only [Bool.false_eq_true, if_false, BitVec.toNat_setWidth, BitVec.toNat_ofNat]
    omega

/-- A region of eight bytes. -/
def exRam : List Region := [⟨0x1000, 0x1007, [0x11, 0x22, 0x83, 0x84, 0x55, 0x66, 0x77, 0x88]⟩]

/-- `ldr r0, [r1, #4]`, `ldrh r0, [r1, #2]`, `ldrsh r0, [r1, r2]`, `ldrsb r0, [r1, r2]`, then
`ldr` from outside and across the end; `strb r0, [r1, #1]` and `str` across the end. -/
example :
    ranRegs [0x48, 0x68] (sample [(1, 0x1000)] exRam) [0, 15] = some [some 0x88776655, some 2] ∧
    ranRegs [0x48, 0x88] (sample [(1, 0x1000)] exRam) [0, 15] = some [some 0x8483, some 2] ∧
    ranRegs [0x88, 0x5e] (sample [(1, 0x1000), (2, 2)] exRam) [0] = some [some 0xffff8483] ∧
    ranRegs [0x88, 0x56] (sample [(1, 0x1003), (2, 0xffffffff)] exRam) [0] = some [some 0xffffff83] ∧
    ranRegs [0x48, 0x68] (sample [(0, 7), (1, 0x2000)] exRam) [0] = some [some 0] ∧
    ranRegs [0x48, 0x68] (sample [(0, 7), (1, 0x1002)] exRam) [0] = none ∧
    ranMem [0x48, 0x70] (sample [(0, 0x12345678), (1, 0x1000)] exRam) =
      some [[0x11, 0x78, 0x83, 0x84, 0x55, 0x66, 0x77, 0x88]] ∧
    ranMem [0x48, 0x60] (sample [(0, 0x12345678), (1, 0x1002)] exRam) =
      some [[0x11, 0x22, 0x83, 0x84, 0x55, 0x66, 0x78, 0x56, 0x34, 0x12]] := by
  refine ⟨?_, ?_, ?_, ?_, ?_, ?_, ?_, ?_⟩ <;> simp only [ranMem, ranRegs, ran] <;> rw [trees, decoders_eq] <;> decide +kernel

end C52

namespace C53

/-- **C53.** After a store, a load of the same size from the same address, by any load
instruction, in any state with the memory the store left, gives the low bits of the stored
register, extended. -/
theorem store_load {sz t n t' n' : Nat} {sgn : Bool} {off off' : Off} {i i' : Instr} {s s' : Machine} {c c' : Core}
    (h : (Act.store sz t n off).Of i) (hv : (Act.store sz t n off).Valid) (ht : t < 15) (hn : n < 15) (ho : off.NoPc)
    (hs : Shows s c) (hm : MemOK s.mem) (hin : Inside s.mem (c.reg n + off.val c).toNat (sz / 8))
    (h' : (Act.load sz sgn t' n' off').Of i') (hv' : (Act.load sz sgn t' n' off').Valid) (ht' : t' < 15) (hn' : n' < 15)
    (ho' : off'.NoPc) (hs' : Shows s' c') :
    ∃ c1, EndsWell i s c1 ∧ (c'.mem = c1.mem → MemOK s'.mem → (∀ y k, Inside s'.mem y k ↔ Inside s.mem y k) →
      c'.reg n' + off'.val c' = c.reg n + off.val c →
      EndsIn i' s' ((c'.set t' (extended sgn sz ((c.reg t).toNat % 2 ^ sz))).next i'.size)) := by
  refine ⟨_, does_well h hv ⟨ht, hn, ho⟩ hs hm hin, ?_⟩
  intro hmem hm' hin' hx
  have := C52.load_right_partial h' hv' ht' hn' ho' hs' hm' (by rw [hx]; exact (hin' _ _).mpr hin)
  have hz := hv.1
  unfold SizeOK at hz
  have e : c'.read (c'.reg n' + off'.val c') (sz / 8) = (c.reg t).toNat % 2 ^ sz := by
    rw [hx]
    simp only [Act.run, core_rd _ hn, core_rd _ ht] at hmem
    have e1 : c'.read (c.reg n + off.val c) (sz / 8) =
        (c.write (c.reg n + off.val c) (sz / 8) (c.reg t).toNat).read (c.reg n + off.val c) (sz / 8) := core_read_mem hmem _ _
    rw [e1, read_write_same, show 8 * (sz / 8) = sz by omega]
  rw [e] at this
  exact this

/-- **C53.** In particular for the load right after the store, from the same base (which is
unchanged) and immediate offset. -/
theorem store_load_next {sz t n t' : Nat} {sgn : Bool} {v : Word} {i i' : Instr} {s : Machine} {c : Core}
    (h : (Act.store sz t n (.imm v)).Of i) (hz : SizeOK sz) (ht : t < 15) (hn : n < 15)
    (hs : Shows s c) (hm : MemOK s.mem) (hin : Inside s.mem (c.reg n + v).toNat (sz / 8))
    (h' : (Act.load sz sgn t' n (.imm v)).Of i') (ht' : t' < 15) :
    ∃ i1 s1 c1, i.eval s = (.ok i1, s1) ∧ EndsIn i' s1 c1 ∧
      (t' ≠ 13 → c1.reg t' = extended sgn sz ((c.reg t).toNat % 2 ^ sz)) ∧
      ∀ k : Int, k ≠ t' → k ≠ 15 → ¬ (t' = 13 ∧ k = 17) → c1.reg k = c.reg k := by
  have hw := does_well h ⟨hz, trivial⟩ ⟨ht, hn, trivial⟩ hs hm hin
  obtain ⟨i1, s1, e1, e2, e3, e4⟩ := hw
  obtain ⟨c1, f1, f2⟩ := store_load h ⟨hz, trivial⟩ ht hn trivial hs hm hin h' ⟨hz, trivial⟩ ht' hn trivial e2
  have hu := ends_unique f1.ends ⟨i1, s1, e1, e2⟩
  have hn0 : (((c.write (c.rd n + v) (sz / 8) (c.rd t).toNat)).next i.size).reg n = c.reg n := next_reg _ _ (by omega)
  have := f2 hu.2.symm e3 e4 (by
    show (((c.write (c.rd n + v) (sz / 8) (c.rd t).toNat)).next i.size).reg n + v = _
    rw [hn0]; rfl)
  refine ⟨i1, s1, _, e1, this, fun h13 => ?_, fun k hk1 hk2 hk3 => ?_⟩
  · exact (C52.load_changes _ _ ht' _).2.2 h13
  · rw [(C52.load_changes _ _ ht' _).2.1 k hk1 hk2 hk3]
    exact next_reg _ _ hk2

/-- **C53.** A word comes back as it was. -/
theorem word_back (x : Word) (sgn : Bool) : extended sgn 32 (x.toNat % 2 ^ 32) = x := by
  unfold extended
  rw [Nat.mod_eq_of_lt x.isLt]
  cases sgn <;> simp

/-- `strh r0, [r1, #2]` then `ldrsh r3, [r1, r2]`, and `ldrh r3, [r1, #2]`. -/
example :
    ((ran [0x48, 0x80] (sample [(0, 0x12349abc), (1, 0x1000), (2, 2)] C52.exRam)).bind fun s => ranRegs [0x8b, 0x5e] s [3, 15]) =
      some [some 0xffff9abc, some 4] ∧
    ((ran [0x48, 0x80] (sample [(0, 0x12349abc), (1, 0x1000), (2, 2)] C52.exRam)).bind fun s => ranRegs [0x4b, 0x88] s [3, 15]) =
      some [some 0x9abc, some 4] := by
  refine ⟨?_, ?_⟩ <;> unfold ranRegs ran <;> rw [trees, decoders_eq] <;> decide +kernel

end C53

namespace C54

/-- SP after a push. -/
theorem sp_down {x : Word} (hx : x.toNat % 4 = 0) (n : Nat) : (x - w32 (4 * n)) &&& 0xfffffffc#32 = x - w32 (4 * n) := by
  apply keep_aligned
  unfold w32
  rw [BitVec.toNat_sub, BitVec.toNat_ofNat]
  omega

/-- The state PUSH leaves, for a list without SP and PC: SP is lower by 4 for each register,
the words from SP upwards are the listed registers, the lowest register first, and nothing
else has changed. -/
structure Pushed (r : BitVec 16) (size : Nat) (c c1 : Core) : Prop where
  sp : c1.reg 13 = c.reg 13 - w32 (4 * count r)
  pc : c1.reg 15 = c.reg 15 + BitVec.ofNat 32 size
  words : ∀ j (hj : j < (listed r).length), c1.read (c1.reg 13 + w32 (4 * j)) 4 = (c.reg (listed r)[j]).toNat
  regs : ∀ k : Int, k ≠ 13 → k ≠ 17 → k ≠ 15 → c1.reg k = c.reg k
  mem : ∀ y : Int, (∀ j, j < count r →
    ¬ (((c1.reg 13 + w32 (4 * j)).toNat : Int) ≤ y ∧ y < (c1.reg 13 + w32 (4 * j)).toNat + 4)) → c1.mem y = c.mem y

theorem pushed_run {r : BitVec 16} {c : Core} (size : Nat) (h13 : r.getLsbD 13 = false) (ha : (c.reg 13).toNat % 4 = 0) :
    Pushed r size c ((Act.push r).run size c) := by
  simp only [Act.run]
  have hreg : ∀ k : Int, ((((c.set 13 (c.reg 13 - w32 (4 * count r))).storeAll (listed r) (c.reg 13 - w32 (4 * count r))).next
      size)).reg k = if k = 15 then c.reg 15 + BitVec.ofNat 32 size else if k = 13 ∨ k = 17 then c.reg 13 - w32 (4 * count r)
      else c.reg k := by
    intro k
    have h0 : ∀ k, ((c.set 13 (c.reg 13 - w32 (4 * count r))).storeAll (listed r) (c.reg 13 - w32 (4 * count r))).reg k =
        if k = 13 ∨ k = 17 then c.reg 13 - w32 (4 * count r) else c.reg k := by
      intro k
      rw [core_storeAll_reg, core_reg_set]
      have : keepBits 13 (c.reg 13 - w32 (4 * count r)) = c.reg 13 - w32 (4 * count r) := sp_down ha _
      rw [this]
      by_cases hk : k = 13 ∨ k = 17
      · rw [if_pos hk, if_pos (by omega)]
      · rw [if_neg hk, if_neg (by omega)]
    by_cases hk : k = 15
    · subst hk
      rw [if_pos rfl]
      unfold Core.next
      rw [core_reg_set, if_pos (.inl rfl), h0, if_neg (by omega)]
      rfl
    · rw [if_neg hk, next_reg _ _ hk, h0]
  have hsp := (hreg 13).trans ((if_neg (by omega)).trans (if_pos (.inl rfl)))
  refine ⟨hsp, (hreg 15).trans (if_pos rfl), ?_, ?_, ?_⟩
  · intro j hj
    rw [hsp]
    have := storeAll_read (listed r) (c.reg 13 - w32 (4 * count r)) (c.set 13 (c.reg 13 - w32 (4 * count r)))
      (by have := count_le r; rw [listed_length]; omega) j hj
    have e : ((c.set 13 (c.reg 13 - w32 (4 * count r))).reg (listed r)[j]) = c.reg (listed r)[j] := by
      have hk := mem_listed.mp (List.getElem_mem hj)
      rw [core_reg_set, if_neg]
      intro hor
      have : (listed r)[j] = 13 := by omega
      rw [this, h13] at hk
      exact absurd hk.2 (by decide)
    rw [e] at this
    exact this
  · intro k h1 h2 h3
    rw [hreg k, if_neg h3, if_neg (by omega)]
  · intro y hy
    rw [hsp] at hy
    exact storeAll_mem_other _ _ (c.set 13 _) y hy

/-- **C54.** PUSH with the stack inside memory. -/
theorem push {r : BitVec 16} {i : Instr} {s : Machine} {c : Core} (h : (Act.push r).Of i) (hs : Shows s c) (hm : MemOK s.mem)
    (h13 : r.getLsbD 13 = false) (h15 : r.getLsbD 15 = false) (ha : (c.reg 13).toNat % 4 = 0)
    (hw : Words s.mem (c.reg 13 - w32 (4 * count r)) (count r)) : ∃ c1, EndsWell i s c1 ∧ Pushed r i.size c c1 := by
  exact ⟨_, does_well h trivial trivial hs hm ⟨h15, hw⟩, pushed_run _ h13 ha⟩

/-- The state POP leaves, if the words from SP upwards are the listed registers of a state with
a higher SP. -/
theorem popped_run {r : BitVec 16} {c d : Core} (size : Nat) (h13 : r.getLsbD 13 = false) (h15 : r.getLsbD 15 = false)
    (ha : (c.reg 13).toNat % 4 = 0) (hsp : d.reg 13 = c.reg 13 - w32 (4 * count r))
    (hwords : ∀ j (hj : j < (listed r).length), d.read (d.reg 13 + w32 (4 * j)) 4 = (c.reg (listed r)[j]).toNat) :
    (∀ k < 16, r.getLsbD k = true → ((Act.pop r).run size d).reg k = c.reg k) ∧ ((Act.pop r).run size d).reg 13 = c.reg 13 ∧
      ((Act.pop r).run size d).reg 15 = d.reg 15 + BitVec.ofNat 32 size ∧ ((Act.pop r).run size d).mem = d.mem ∧
      ∀ k : Int, k ≠ 13 → k ≠ 15 → k ≠ 17 → (∀ j : Nat, k = j → r.getLsbD j = false) → ((Act.pop r).run size d).reg k = d.reg k := by
  have hrun : (Act.pop r).run size d = (((d.set 13 (c.reg 13)).loadAll (listed r) (d.reg 13)).next size) := by
    simp only [Act.run, h15, Core.nextUnless, Bool.false_eq_true, if_false]
    rw [show d.reg 13 + w32 (4 * count r) = c.reg 13 by rw [hsp, BitVec.sub_add_cancel]]
  rw [hrun]
  have hlt : ∀ k ∈ listed r, k < 15 := by
    intro k hk
    have := mem_listed.mp hk
    have : k ≠ 15 := by rintro rfl; rw [h15] at this; exact absurd this.2 (by decide)
    omega
  have hn13 : ∀ k ∈ listed r, k ≠ 13 := by
    intro k hk
    have := mem_listed.mp hk
    rintro rfl; rw [h13] at this; exact absurd this.2 (by decide)
  refine ⟨?_, ?_, ?_, ?_, ?_⟩
  · intro k hk hkr
    have hmem' : k ∈ listed r := mem_listed.mpr ⟨hk, hkr⟩
    have hk15 := hlt k hmem'
    obtain ⟨j, hj, rfl⟩ := List.getElem_of_mem hmem'
    rw [next_reg _ _ (by omega), loadAll_reg _ _ _ (listed_nodup r) hlt j hj, keepBits_plain (by omega) (hn13 _ hmem')]
    have : (d.set 13 (c.reg 13)).read (d.reg 13 + w32 (4 * j)) 4 = d.read (d.reg 13 + w32 (4 * j)) 4 := rfl
    rw [this, hwords j hj]
    unfold w32
    rw [BitVec.ofNat_toNat, BitVec.setWidth_eq]
  · rw [next_reg _ _ (by omega), loadAll_other _ _ _ _ (fun j hj => by
      have := hlt j hj; have := hn13 j hj; omega), core_reg_set, if_pos (.inl rfl)]
    exact keep_aligned ha
  · unfold Core.next
    rw [core_reg_set, if_pos (.inl rfl), loadAll_other _ _ _ _ (fun j hj => by
      have := hlt j hj; omega), core_reg_set, if_neg (by omega)]
    rfl
  · show ((d.set 13 (c.reg 13)).loadAll (listed r) (d.reg 13)).mem = _
    rw [core_loadAll_mem]; rfl
  · intro k h1 h2 h3 h4
    rw [next_reg _ _ h2, loadAll_other _ _ _ _ (fun j hj => by
      have := hlt j hj
      refine ⟨by omega, ?_, by omega⟩
      intro e
      have := h4 j e.symm
      rw [(mem_listed.mp hj).2] at this
      cases this), core_reg_set, if_neg (by omega)]

/-- **C54.** POP of the same list, in any state with the SP and the memory that PUSH left:
the listed registers and SP are as they were before PUSH, nothing else changes. -/
theorem pop_after_push {r : BitVec 16} {size : Nat} {c c1 : Core} (hp : Pushed r size c c1)
    (h13 : r.getLsbD 13 = false) (h15 : r.getLsbD 15 = false) (ha : (c.reg 13).toNat % 4 = 0)
    {i : Instr} {s : Machine} {d : Core} (h : (Act.pop r).Of i) (hs : Shows s d) (hm : MemOK s.mem)
    (hd : d.reg 13 = c1.reg 13) (hmem : d.mem = c1.mem) (hw : Words s.mem (d.reg 13) (count r)) :
    ∃ e, EndsWell i s e ∧ (∀ k < 16, r.getLsbD k = true → e.reg k = c.reg k) ∧ e.reg 13 = c.reg 13 ∧
      e.reg 15 = d.reg 15 + BitVec.ofNat 32 i.size ∧ e.mem = d.mem ∧
      ∀ k : Int, k ≠ 13 → k ≠ 15 → k ≠ 17 → (∀ j : Nat, k = j → r.getLsbD j = false) → e.reg k = d.reg k := by
  refine ⟨_, does_well h trivial trivial hs hm ⟨hw, fun hc => by rw [h15] at hc; cases hc⟩, ?_⟩
  exact popped_run _ h13 h15 ha (hd.trans hp.sp) fun j hj => by
    rw [hd, core_read_mem hmem]
    exact hp.words j hj

/-- **C54.** PUSH and then POP of the same list (without SP and PC) restores all registers
but PC. -/
theorem push_pop {r : BitVec 16} {i j : Instr} {s : Machine} {c : Core} (h : (Act.push r).Of i) (h' : (Act.pop r).Of j)
    (hs : Shows s c) (hm : MemOK s.mem) (h13 : r.getLsbD 13 = false) (h15 : r.getLsbD 15 = false)
    (ha : (c.reg 13).toNat % 4 = 0) (hw : Words s.mem (c.reg 13 - w32 (4 * count r)) (count r)) :
    ∃ i1 s1 c1 c2, i.eval s = (.ok i1, s1) ∧ Shows s1 c1 ∧ EndsWell j s1 c2 ∧ c2.mem = c1.mem ∧
      (∀ k : Int, k ≠ 15 → k ≠ 17 → c2.reg k = c.reg k) := by
  obtain ⟨c1, ⟨i1, s1, e1, e2, e3, e4⟩, hp⟩ := push h hs hm h13 h15 ha hw
  obtain ⟨c2, f1, f2, f3, f4, f5, f6⟩ := pop_after_push hp h13 h15 ha h' e2 e3 rfl rfl (fun j hj => (e4 _ _).mpr (by
    rw [hp.sp]; exact hw j hj))
  refine ⟨i1, s1, c1, c2, e1, e2, f1, f5, ?_⟩
  intro k h1 h2
  by_cases hk : k = 13
  · rw [hk, f3]
  by_cases hl : ∃ j : Nat, k = j ∧ r.getLsbD j = true
  · obtain ⟨j, rfl, hj⟩ := hl
    have : j < 16 := by
      rcases Nat.lt_or_ge j 16 with h | h
      · exact h
      · rw [BitVec.getLsbD_of_ge _ _ h] at hj; cases hj
    exact f2 j this hj
  · rw [f6 k hk h1 h2 (fun j e => by
      cases hc : r.getLsbD j
      · rfl
      · exact absurd ⟨j, e, hc⟩ hl), hp.regs k hk h2 h1]

/-- A stack of sixteen bytes. -/
def exStack : List Region := [⟨0x1000, 0x100f, List.replicate 16 0⟩]

/-- `push {r0, r3, lr}` puts r0 lowest; `pop {r0, r3}` after it, and `pop {r1, r2}`. -/
example :
    ranMem [0x09, 0xb5] (sample [(0, 0x11223344), (3, 5), (14, 0xfedcba98), (13, 0x1010), (17, 0x1010)] exStack) =
      some [[0, 0, 0, 0, 0x44, 0x33, 0x22, 0x11, 5, 0, 0, 0, 0x98, 0xba, 0xdc, 0xfe]] ∧
    ranRegs [0x09, 0xb5] (sample [(0, 0x11223344), (3, 5), (14, 0xfedcba98), (13, 0x1010), (17, 0x1010)] exStack) [13, 17, 0] =
      some [some 0x1004, some 0x1004, some 0x11223344] ∧
    ((ran [0x09, 0xb4] (sample [(0, 0x11223344), (3, 5), (13, 0x1010), (17, 0x1010)] exStack)).bind fun s =>
      ranRegs [0x09, 0xbc] s [0, 3, 13, 15]) = some [some 0x11223344, some 5, some 0x1010, some 4] ∧
    ((ran [0x09, 0xb4] (sample [(0, 0x11223344), (3, 5), (13, 0x1010), (17, 0x1010)] exStack)).bind fun s =>
      ranRegs [0x06, 0xbc] s [1, 2, 13]) = some [some 0x11223344, some 5, some 0x1010] := by
  refine ⟨?_, ?_, ?_, ?_⟩ <;> simp only [ranMem, ranRegs, ran] <;> rw [trees, decoders_eq] <;> decide +kernel

end C54

namespace C55

/-- The state STM leaves: the words from the base upwards are the listed registers, the
lowest register first, the base is written back if the encoding says so, nothing else
changes. -/
structure Stored (n : Nat) (wback : Bool) (r : BitVec 16) (size : Nat) (c c1 : Core) : Prop where
  words : ∀ j (hj : j < (listed r).length), c1.read (c.reg n + w32 (4 * j)) 4 = (c.reg (listed r)[j]).toNat
  base : n ≠ 13 → c1.reg n = if wback then c.reg n + w32 (4 * count r) else c.reg n
  pc : c1.reg 15 = c.reg 15 + BitVec.ofNat 32 size
  regs : ∀ k : Int, k ≠ n → k ≠ 15 → ¬ (n = 13 ∧ k = 17) → c1.reg k = c.reg k
  mem : ∀ y : Int, (∀ j, j < count r →
    ¬ (((c.reg n + w32 (4 * j)).toNat : Int) ≤ y ∧ y < (c.reg n + w32 (4 * j)).toNat + 4)) → c1.mem y = c.mem y

/-- **C55.** STM with all words inside memory, for every list without PC (encodings have no
such bit). Missing here: words outside memory, for
which see `store_multiple_anywhere` and `push_anywhere` in `Props/C55`. -/
theorem store_multiple_partial {n : Nat} {wback : Bool} {r : BitVec 16} {i : Instr} {s : Machine} {c : Core}
    (h : (Act.stm n wback r).Of i) (hn : n < 15) (hs : Shows s c) (hm : MemOK s.mem) (h15 : r.getLsbD 15 = false)
    (hw : Words s.mem (c.reg n) (count r)) : ∃ c1, EndsWell i s c1 ∧ Stored n wback r i.size c c1 := by
  refine ⟨_, does_well h trivial hn hs hm ⟨h15, hw⟩, ?_⟩
  simp only [Act.run]
  have hmem : ((if wback = true then (c.storeAll (listed r) (c.reg n)).set n (c.reg n + w32 (4 * count r))
      else c.storeAll (listed r) (c.reg n)).next i.size).mem = (c.storeAll (listed r) (c.reg n)).mem := by
    cases wback <;> rfl
  refine ⟨?_, ?_, ?_, ?_, ?_⟩
  · intro j hj
    rw [core_read_mem hmem]
    exact storeAll_read (listed r) (c.reg n) c (by have := count_le r; rw [listed_length]; omega) j hj
  · intro h13
    rw [next_reg _ _ (by omega)]
    cases wback
    · simp only [Bool.false_eq_true, if_false]
      rw [core_storeAll_reg]
    · simp only [if_true]
      rw [core_reg_set, if_pos (.inl rfl), keepBits_plain (by omega) h13]
  · unfold Core.next
    rw [core_reg_set, if_pos (.inl rfl)]
    cases wback
    · simp only [Bool.false_eq_true, if_false]
      rw [core_storeAll_reg]; rfl
    · simp only [if_true]
      rw [core_reg_set, if_neg (by omega), core_storeAll_reg]; rfl
  · intro k h1 h2 h3
    rw [next_reg _ _ h2]
    cases wback
    · simp only [Bool.false_eq_true, if_false]
      rw [core_storeAll_reg]
    · simp only [if_true]
      rw [core_reg_set, if_neg (by omega), core_storeAll_reg]
  · intro y hy
    rw [hmem]
    exact storeAll_mem_other _ _ c y hy

/-- The state LDM leaves, for a list without SP and PC: the listed registers hold the words
from the base upwards, the lowest register the lowest word; the base is written back if the
encoding says so and it is not loaded itself; nothing else changes. -/
structure Loaded (n : Nat) (wback : Bool) (r : BitVec 16) (size : Nat) (c c1 : Core) : Prop where
  words : ∀ j (hj : j < (listed r).length), c1.reg (listed r)[j] = w32 (c.read (c.reg n + w32 (4 * j)) 4)
  base : n ≠ 13 → r.getLsbD n = false → c1.reg n = if wback then c.reg n + w32 (4 * count r) else c.reg n
  pc : c1.reg 15 = c.reg 15 + BitVec.ofNat 32 size
  regs : ∀ k : Int, k ≠ n → k ≠ 15 → ¬ (n = 13 ∧ k = 17) → (∀ j : Nat, k = j → r.getLsbD j = false) → c1.reg k = c.reg k
  mem : c1.mem = c.mem

/-- **C55.** LDM with all words inside memory, for every list without SP and PC. For lists
with PC see `load_multiple_pc`. Missing here: words outside memory, for
which see `load_multiple_anywhere` and `pop_anywhere` in `Props/C55`. -/
theorem load_multiple_partial {n : Nat} {wback : Bool} {r : BitVec 16} {i : Instr} {s : Machine} {c : Core}
    (h : (Act.ldm n wback r).Of i) (hn : n < 15) (hs : Shows s c) (hm : MemOK s.mem) (h13 : r.getLsbD 13 = false)
    (h15 : r.getLsbD 15 = false) (hw : Words s.mem (c.reg n) (count r)) :
    ∃ c1, EndsWell i s c1 ∧ Loaded n wback r i.size c c1 := by
  refine ⟨_, does_well h trivial hn hs hm ⟨hw, fun hc => by rw [h15] at hc; cases hc⟩, ?_⟩
  have hlt : ∀ k ∈ listed r, k < 15 := by
    intro k hk
    have := mem_listed.mp hk
    have : k ≠ 15 := by rintro rfl; rw [h15] at this; exact absurd this.2 (by decide)
    omega
  have hn13 : ∀ k ∈ listed r, k ≠ 13 := by
    intro k hk
    have := mem_listed.mp hk
    rintro rfl; rw [h13] at this; exact absurd this.2 (by decide)
  simp only [Act.run, h15, Core.nextUnless, Bool.false_eq_true, if_false]
  generalize hL : c.loadAll (listed r) (c.reg n) = L
  have hLreg : ∀ k : Int, (∀ j : Nat, k = j → r.getLsbD j = false) → L.reg k = c.reg k := by
    intro k hk
    rw [← hL]
    refine loadAll_other _ _ _ _ (fun j hj => ⟨by have := hlt j hj; omega, ?_, ?_⟩)
    · intro e
      have := hk j e.symm
      rw [(mem_listed.mp hj).2] at this
      cases this
    · have := hn13 j hj; omega
  refine ⟨?_, ?_, ?_, ?_, ?_⟩
  · intro j hj
    have hmem' := List.getElem_mem hj
    have hk15 := hlt _ hmem'
    have key : L.reg (listed r)[j] = w32 (c.read (c.reg n + w32 (4 * j)) 4) := by
      rw [← hL, loadAll_reg _ _ _ (listed_nodup r) hlt j hj, keepBits_plain (by omega) (hn13 _ hmem')]
    split
    · rename_i hc
      have hne : (listed r)[j] ≠ n := by
        intro e
        have := (mem_listed.mp hmem').2
        rw [e] at this
        simp only [this, Bool.not_true, Bool.and_false, Bool.false_eq_true] at hc
      rw [core_reg_set, if_neg (by omega), next_reg _ _ (by omega), key]
    · rw [next_reg _ _ (by omega), key]
  · intro hne hnr
    rw [hnr]
    cases wback
    · simp only [Bool.false_and, Bool.false_eq_true, if_false]
      rw [next_reg _ _ (by omega), hLreg _ (fun j e => by rw [show j = n by omega]; exact hnr)]
    · simp only [Bool.not_false, Bool.and_self, if_true]
      rw [core_reg_set, if_pos (.inl rfl), keepBits_plain (by omega) hne]
  · have e : (L.next i.size).reg 15 = c.reg 15 + BitVec.ofNat 32 i.size := by
      unfold Core.next
      rw [core_reg_set, if_pos (.inl rfl), hLreg 15 (fun j e => by rw [show j = 15 by omega]; exact h15)]
      rfl
    split
    · rw [core_reg_set, if_neg (by omega), e]
    · exact e
  · intro k h1 h2 h3 h4
    have e : (L.next i.size).reg k = c.reg k := by rw [next_reg _ _ h2, hLreg k h4]
    split
    · rw [core_reg_set, if_neg (by omega), e]
    · exact e
  · have e : (L.next i.size).mem = c.mem := by
      show L.mem = _
      rw [← hL, core_loadAll_mem]
    split
    · exact e
    · exact e

/-- **C55.** POP with PC in the list exactly: SP and the other registers as usual, and PC
becomes the word as it is in memory. -/
theorem pop_pc {r : BitVec 16} {i : Instr} {s : Machine} {c : Core} (h : (Act.pop r).Of i) (hs : Shows s c) (hm : MemOK s.mem)
    (h15 : r.getLsbD 15 = true) (hw : Words s.mem (c.reg 13) (count r)) :
    EndsIn i s (((c.set 13 (c.reg 13 + w32 (4 * count r))).loadAll ((listed r).dropLast) (c.reg 13)).set 15
      (w32 (c.read (c.reg 13 + w32 (4 * (count r - 1))) 4))) := by
  obtain ⟨a, rfl, rfl, ha⟩ := hs.arm
  obtain ⟨b, h1, h2⟩ := loadRegs_pc (a := a.set 13 (a.reg 13 + w32 (4 * count r))) hm i.size r (a.reg 13) hw h15
  have := ends_of h trivial (a := a) (b := b) h1
  rw [h2] at this
  have hl : (listed r).dropLast = low15 r := by rw [listed_eq, h15]; simp
  have hc : count r - 1 = (low15 r).length := by rw [count_eq, h15]; simp
  rw [hl, hc]
  exact this

/-- **C55.** So POP with PC in the list does what the manual says if and only if the word
for PC is even; return addresses are odd. -/
theorem pop_pc_right_iff_partial {r : BitVec 16} {i : Instr} {s : Machine} {c : Core} (h : (Act.pop r).Of i) (hs : Shows s c)
    (hm : MemOK s.mem) (h15 : r.getLsbD 15 = true) (hw : Words s.mem (c.reg 13) (count r)) :
    Does i (.pop r) s c ↔ c.read (c.reg 13 + w32 (4 * (count r - 1))) 4 % 2 = 0 := by
  have hc : count r - 1 = (low15 r).length := by rw [count_eq, h15]; simp
  have hbit : ∀ v : Nat, (w32 v).getLsbD 0 = false ↔ v % 2 = 0 := by
    intro v
    unfold w32
    rw [BitVec.getLsbD_ofNat, Nat.testBit_zero]
    simp
  rw [← hbit, hc]
  constructor
  · intro hd
    have h1 := pop_pc h hs hm h15 hw
    have := (ends_unique h1 hd).1 15 (core_mem (k := 15) (by omega))
    rw [core_reg_set, if_pos (.inl rfl)] at this
    simp only [Act.run, h15, Core.nextUnless, if_true] at this
    rw [listed_eq, h15, if_pos rfl, core_loadAll_append] at this
    have e : ∀ (d : Core) (x : Word), (d.loadAll [15] x).reg 15 = w32 (d.read x 4) &&& ~~~1#32 := by
      intro d x
      show (d.set ((15 : Nat) : Int) (if 15 = 15 then w32 (d.read x 4) &&& ~~~1#32 else _)).reg 15 = _
      rw [if_pos rfl, core_reg_set, if_pos (.inl rfl)]
      rfl
    rw [e] at this
    have hr : ∀ y, (((c.set 13 (c.reg 13 + w32 (4 * count r))).loadAll (low15 r) (c.reg 13)).read y 4) = c.read y 4 := by
      intro y
      apply core_read_mem
      rw [core_loadAll_mem]; rfl
    rw [hr, hc] at this
    have this : w32 (c.read (c.reg 13 + w32 (4 * (low15 r).length)) 4) =
      w32 (c.read (c.reg 13 + w32 (4 * (low15 r).length)) 4) &&& ~~~1#32 := this
    rw [this]
    simp
  · intro hev
    exact does_right h trivial trivial hs hm ⟨hw, fun _ => hev⟩

/-- **C55.** The same for LDM with PC in the list. -/
theorem load_multiple_pc {n : Nat} {wback : Bool} {r : BitVec 16} {i : Instr} {s : Machine} {c : Core}
    (h : (Act.ldm n wback r).Of i) (hn : n < 15) (hs : Shows s c) (hm : MemOK s.mem) (h15 : r.getLsbD 15 = true)
    (hw : Words s.mem (c.reg n) (count r)) :
    Does i (.ldm n wback r) s c ↔ c.read (c.reg n + w32 (4 * (count r - 1))) 4 % 2 = 0 := by
  have hc : count r - 1 = (low15 r).length := by rw [count_eq, h15]; simp
  have hbit : ∀ v : Nat, (w32 v).getLsbD 0 = false ↔ v % 2 = 0 := by
    intro v
    unfold w32
    rw [BitVec.getLsbD_ofNat, Nat.testBit_zero]
    simp
  rw [← hbit, hc]
  constructor
  · intro hd
    obtain ⟨a, rfl, rfl, ha⟩ := hs.arm
    obtain ⟨b, h1, h2⟩ := loadRegs_pc (a := a) hm i.size r (a.reg n) hw h15
    have he : (Act.ldm n wback r).effect i.size a = (.ok (), b.writeBack n wback r) := by
      show a.ldm i.size n wback r = _
      unfold Arm.ldm
      rw [h1]
    have := (ends_unique (ends_of h trivial he) hd).1 15 (core_mem (k := 15) (by omega))
    have hb : (b.writeBack n wback r).core.reg 15 = b.core.reg 15 := by
      unfold Arm.writeBack
      split
      · exact (core_reg_set b.core n 15 _).trans (if_neg (by omega))
      · rfl
    rw [hb, h2, core_reg_set, if_pos (.inl rfl)] at this
    simp only [Act.run, h15, Core.nextUnless, if_true] at this
    have hsplit : ∀ d : Core, (if (wback && !r.getLsbD n) = true then d.set n (a.core.reg n + w32 (4 * count r)) else d).reg 15 =
        d.reg 15 := by
      intro d
      split
      · rw [core_reg_set, if_neg (by omega)]
      · rfl
    rw [hsplit, listed_eq, h15, if_pos rfl, core_loadAll_append] at this
    have e : ∀ (d : Core) (x : Word), (d.loadAll [15] x).reg 15 = w32 (d.read x 4) &&& ~~~1#32 := by
      intro d x
      show (d.set ((15 : Nat) : Int) (if 15 = 15 then w32 (d.read x 4) &&& ~~~1#32 else _)).reg 15 = _
      rw [if_pos rfl, core_reg_set, if_pos (.inl rfl)]
      rfl
    rw [e] at this
    have hr : ∀ y, ((a.core.loadAll (low15 r) (a.core.reg n)).read y 4) = a.core.read y 4 := by
      intro y
      apply core_read_mem
      rw [core_loadAll_mem]
    rw [hr] at this
    have this : w32 (a.core.read (a.core.reg n + w32 (4 * (low15 r).length)) 4) =
      w32 (a.core.read (a.core.reg n + w32 (4 * (low15 r).length)) 4) &&& ~~~1#32 := this
    rw [this]
    simp
  · intro hev
    exact does_right h trivial hn hs hm ⟨hw, fun _ => hev⟩

/-- `stm r1!, {r0, r2}`, `ldm r1!, {r0, r2}`, `ldm r1, {r0, r1}` (no write-back, the base is
loaded), and `pop {pc}` of an odd word. -/
example :
    ranMem [0x05, 0xc1] (sample [(0, 0x11223344), (1, 0x1004), (2, 5)] C54.exStack) =
      some [[0, 0, 0, 0, 0x44, 0x33, 0x22, 0x11, 5, 0, 0, 0, 0, 0, 0, 0]] ∧
    ranRegs [0x05, 0xc1] (sample [(0, 0x11223344), (1, 0x1004), (2, 5)] C54.exStack) [0, 1, 2, 15] =
      some [some 0x11223344, some 0x100c, some 5, some 2] ∧
    ranRegs [0x05, 0xc9] (sample [(1, 0x1000)] C52.exRam) [0, 1, 2, 15] =
      some [some 0x84832211, some 0x1008, some 0x88776655, some 2] ∧
    ranRegs [0x03, 0xc9] (sample [(1, 0x1000)] C52.exRam) [0, 1, 2] = some [some 0x84832211, some 0x88776655, some 0] ∧
    ranRegs [0x00, 0xbd] (sample [(13, 0x1000), (17, 0x1000)] C52.exRam) [13, 15] = some [some 0x1004, some 0x84832211] := by
  refine ⟨?_, ?_, ?_, ?_, ?_⟩ <;> simp only [ranMem, ranRegs, ran] <;> rw [trees, decoders_eq] <;> decide +kernel

end C55

end Verif
