import Verif.Thumb
import Verif.Exec
import Verif.Lemmas.Memory

/-!
# Reference semantics, from the Arm architecture manual

A specification, not part of the model: what each `Act` does to the registers and to
memory according to the manual's pseudocode, on 32-bit words and flat memory.

Left out: IT blocks, exceptions and exception return, faults (also those for unaligned
accesses), the T bit, the process stack (SP is always MSP), execution priorities, the DSP and
floating point extensions.
-/

namespace Verif

/-- Registers, indexed like `CORE_REGISTER`, and bytes at addresses. -/
@[ext] structure Core where
  reg : Int → Word
  mem : Flat

/-- The registers and the memory of a machine. -/
def Arm.core (a : Arm) : Core := ⟨a.reg, flat a.mem⟩

namespace Core

/-- Writing a register: SP (13) and MSP (17) are the same, SP and the masks keep only some
bits. -/
def set (c : Core) (k : Int) (v : Word) : Core :=
  { c with reg := fun j =>
      if j = k ∨ (k = 13 ∧ j = 17) ∨ (k = 17 ∧ j = 13) then keepBits k v else c.reg j }

/-- Going on to the next instruction. -/
def next (c : Core) (size : Nat) : Core := c.set 15 (c.reg 15 + BitVec.ofNat 32 size)

/-- A bit of xPSR. -/
def flag (c : Core) (k : Nat) : Bool := (c.reg 16).getLsbD k

/-- The register as an operand: PC reads as the address of the instruction plus 4. -/
def rd (c : Core) (k : Nat) : Word := if k = 15 then c.reg 15 + 4#32 else c.reg k

/-- The result of an instruction that goes on to the next one. Writing PC is a jump, bit 0
is dropped. -/
def result (c : Core) (size d : Nat) (v : Word) : Core :=
  if d = 15 then c.set 15 (v &&& ~~~1#32) else (c.set d v).next size

/-- `n` bytes from an address, the lowest first. -/
def read (c : Core) (x : Word) (n : Nat) : Nat := (flatRead c.mem x.toNat n).getD 0

/-- Writing the low `n` bytes of a number. -/
def write (c : Core) (x : Word) (n : Nat) (v : Nat) : Core := { c with mem := flatWrite c.mem x.toNat n v }

end Core

/-- xPSR with new flags; C and V only if given. -/
def newFlags (x : Word) (n z : Bool) (c v : Option Bool) : Word :=
  let x := withBit (withBit x 31 n) 30 z
  let x := match c with
    | some b => withBit x 29 b
    | none => x
  match v with
  | some b => withBit x 28 b
  | none => x

/-- N and Z from a result, C and V as given, if the instruction sets flags. -/
def Core.flags (s : Core) (on : Bool) (r : Word) (c v : Option Bool) : Core :=
  if on then s.set 16 (newFlags (s.reg 16) r.msb (r == 0#32) c v) else s

/-- `Align(x, 4)`. -/
def align4 (x : Word) : Word := x &&& ~~~3#32

/-- The conditions of the manual in terms of the flags. -/
def condPassed (n z c v : Bool) (cond : Nat) : Bool :=
  match cond with
  | 0 => z
  | 1 => !z
  | 2 => c
  | 3 => !c
  | 4 => n
  | 5 => !n
  | 6 => v
  | 7 => !v
  | 8 => c && !z
  | 9 => !c || z
  | 10 => n == v
  | 11 => n != v
  | 12 => !z && n == v
  | 13 => z || n != v
  | _ => true

/-- Whether a condition holds. -/
def Core.holds (s : Core) (cond : Nat) : Bool := condPassed (s.flag 31) (s.flag 30) (s.flag 29) (s.flag 28) cond

/-- The bytes of a word in the opposite order. -/
def swap32 (x : Word) : Word :=
  x.extractLsb' 0 8 ++ x.extractLsb' 8 8 ++ x.extractLsb' 16 8 ++ x.extractLsb' 24 8

/-- The bytes of both halfwords in the opposite order. -/
def swap16 (x : Word) : Word :=
  x.extractLsb' 16 8 ++ x.extractLsb' 24 8 ++ x.extractLsb' 0 8 ++ x.extractLsb' 8 8

/-- The bytes of the low halfword in the opposite order, with the sign of the result. -/
def swapsh (x : Word) : Word := ((x.extractLsb' 0 8 ++ x.extractLsb' 8 8 : BitVec 16)).signExtend 32

/-- A number of `size` bits as a word. -/
def extended (sgn : Bool) (size v : Nat) : Word :=
  if sgn then (BitVec.ofNat size v).signExtend 32 else (BitVec.ofNat size v).setWidth 32

namespace Thumb

/-- The value of a second operand. -/
def Src.val (s : Core) : Src → Word
  | .reg m => s.rd m
  | .imm v => v

/-- The value of an offset. -/
def Off.val (s : Core) : Off → Word
  | .imm v => v
  | .reg m sh => (C18.armShift (s.rd m) (s.flag 29) sh.1 sh.2).1

/-- The registers of a list, lowest first. -/
def listed (r : BitVec 16) : List Nat := (List.range 16).filter fun k => r.getLsbD k

/-- `op` of a logical instruction. -/
def logical : BitFn → Word → Word → Word
  | .and, x, y => x &&& y
  | .xor, x, y => x ^^^ y
  | .or, x, y => x ||| y

end Thumb

open Thumb

/-- Storing registers at consecutive words. -/
def Core.storeAll (s : Core) : List Nat → Word → Core
  | [], _ => s
  | k :: ks, x => (s.write x 4 (s.reg k).toNat).storeAll ks (x + 4#32)

/-- Loading registers from consecutive words; loading PC is a jump, bit 0 is dropped. -/
def Core.loadAll (s : Core) : List Nat → Word → Core
  | [], _ => s
  | k :: ks, x =>
    let v := w32 (s.read x 4)
    (s.set k (if k = 15 then v &&& ~~~1#32 else v)).loadAll ks (x + 4#32)

/-- Going on after a load of several registers. -/
def Core.nextUnless (s : Core) (jumped : Bool) (size : Nat) : Core := if jumped then s else s.next size

/-- CONTROL.nPRIV is clear: privileged (in Thread mode; Handler mode is not modelled). -/
def Core.privileged (s : Core) : Bool := !(s.reg (-4)).getLsbD 0

/-- What MRS reads. -/
def Core.special (s : Core) (sysm : Nat) : Word :=
  if sysm < 8 then
    (if sysm % 2 = 1 then s.reg 16 &&& 0x1ff#32 else 0#32) |||
      (if sysm / 4 % 2 = 0 then s.reg 16 &&& 0xf8000000#32 else 0#32)
  else if sysm = 8 then (if s.privileged then s.reg 17 else 0#32)
  else if sysm = 9 then (if s.privileged then s.reg 18 else 0#32)
  else if sysm = 16 then (if s.privileged then s.reg (-1) &&& 1#32 else 0#32)
  else if sysm = 17 ∨ sysm = 18 then (if s.privileged then s.reg (-2) &&& 0xff#32 else 0#32)
  else if sysm = 19 then (if s.privileged then s.reg (-3) &&& 1#32 else 0#32)
  else if sysm = 20 then s.reg (-4) &&& 3#32
  else 0#32

/-- What MSR does. -/
def Core.writeSpecial (s : Core) (mask sysm : Nat) (v : Word) : Core :=
  if sysm < 4 then
    if mask / 2 % 2 = 1 then s.set 16 ((s.reg 16 &&& 0x07ffffff#32) ||| (v &&& 0xf8000000#32)) else s
  else if s.privileged = false then s
  else if sysm = 8 then s.set 17 v
  else if sysm = 9 then s.set 18 v
  else if sysm = 16 then s.set (-1) v
  else if sysm = 17 then s.set (-2) v
  else if sysm = 18 then
    if (v &&& 0xff#32) ≠ 0#32 ∧ ((v &&& 0xff#32) < s.reg (-2) ∨ s.reg (-2) = 0#32) then s.set (-2) v else s
  else if sysm = 19 then s.set (-3) v
  else if sysm = 20 then s.set (-4) (v &&& 3#32)
  else s

namespace Thumb

/-- What an instruction of this size does. -/
def Act.run (size : Nat) (s : Core) : Act → Core
  | .addSub sub carry flags d n src =>
    let x := s.rd n
    let y := if sub then ~~~src.val s else src.val s
    let c := if carry then s.flag 29 else sub
    (s.flags flags (C17.sum x y c) (some (C17.carryOut x y c)) (some (C17.overflow x y c))).result size d (C17.sum x y c)
  | .rsb flags d n imm =>
    let x := ~~~s.rd n
    (s.flags flags (C17.sum x imm true) (some (C17.carryOut x imm true)) (some (C17.overflow x imm true))).result size d
      (C17.sum x imm true)
  | .logic f flags d n m =>
    let r := logical f (s.rd n) (s.rd m)
    (s.flags flags r none none).result size d r
  | .bic flags d n m =>
    let r := s.rd n &&& ~~~s.rd m
    (s.flags flags r none none).result size d r
  | .shiftImm t flags d m k =>
    let r := C18.armShift (s.rd m) (s.flag 29) t k
    (s.flags flags r.1 (some r.2) none).result size d r.1
  | .shiftReg t flags d n m =>
    let r := C18.armShift (s.rd n) (s.flag 29) t ((s.rd m).toNat % 256)
    (s.flags flags r.1 (some r.2) none).result size d r.1
  | .mul flags d n m =>
    let r := s.rd n * s.rd m
    (s.flags flags r none none).result size d r
  | .adr add d imm =>
    let base := align4 (s.rd 15)
    s.result size d (if add then base + imm else base - imm)
  | .extend sgn width rotation d m => s.result size d (extended sgn width ((s.rd m).rotateRight rotation).toNat)
  | .rev kind d m =>
    s.result size d (match kind with
      | .rev => swap32 (s.rd m)
      | .rev16 => swap16 (s.rd m)
      | .revsh => swapsh (s.rd m))
  | .mov neg flags d src carry =>
    let r := if neg then ~~~src.val s else src.val s
    (s.flags flags r carry none).result size d r
  | .mvnShift flags d m sh =>
    let r := C18.armShift (s.rd m) (s.flag 29) sh.1 sh.2
    (s.flags flags (~~~r.1) (some r.2) none).result size d (~~~r.1)
  | .cmp sub n src =>
    let x := s.rd n
    let y := if sub then ~~~src.val s else src.val s
    (s.flags true (C17.sum x y sub) (some (C17.carryOut x y sub)) (some (C17.overflow x y sub))).next size
  | .tst n m sh =>
    let r := C18.armShift (s.rd m) (s.flag 29) sh.1 sh.2
    (s.flags true (s.rd n &&& r.1) (some r.2) none).next size
  | .branch cond offset => if s.holds cond then s.set 15 (s.rd 15 + offset) else s.next size
  | .bl offset => (s.set 14 (s.rd 15 ||| 1#32)).set 15 (s.rd 15 + offset)
  | .blx m => (s.set 14 ((s.rd 15 - 2#32) ||| 1#32)).set 15 (s.rd m &&& ~~~1#32)
  | .bx m => s.set 15 (s.rd m &&& ~~~1#32)
  | .load sz sgn t n off => s.result size t (extended sgn sz (s.read (s.rd n + off.val s) (sz / 8)))
  | .store sz t n off => (s.write (s.rd n + off.val s) (sz / 8) (s.rd t).toNat).next size
  | .loadLit sz sgn add t imm =>
    let base := align4 (s.rd 15)
    s.result size t (extended sgn sz (s.read (if add then base + imm else base - imm) (sz / 8)))
  | .push r =>
    let x := s.reg 13 - w32 (4 * count r)
    ((s.set 13 x).storeAll (listed r) x).next size
  | .pop r =>
    ((s.set 13 (s.reg 13 + w32 (4 * count r))).loadAll (listed r) (s.reg 13)).nextUnless (r.getLsbD 15) size
  | .ldm n wback r =>
    let s' := (s.loadAll (listed r) (s.reg n)).nextUnless (r.getLsbD 15) size
    if wback && !r.getLsbD n then s'.set n (s.reg n + w32 (4 * count r)) else s'
  | .stm n wback r =>
    let s' := s.storeAll (listed r) (s.reg n)
    (if wback then s'.set n (s.reg n + w32 (4 * count r)) else s').next size
  | .cps enable pri fault =>
    let v := if enable then 0#32 else 1#32
    let s1 := if pri && s.privileged then s.set (-1) v else s
    let s2 := if fault && s.privileged then s1.set (-3) v else s1
    s2.next size
  | .mrs d sysm => s.result size d (s.special sysm.toNat)
  | .msr n mask sysm => (s.writeSpecial mask.toNat sysm.toNat (s.reg n)).next size
  | .plain => s.next size

/-- No operand and no destination is PC. -/
def Src.NoPc : Src → Prop
  | .reg m => m < 15
  | .imm _ => True

/-- No operand is PC. -/
def Off.NoPc : Off → Prop
  | .reg m _ => m < 15
  | .imm _ => True

/-- No register named in the instruction is PC; register lists may name it. -/
def Act.NoPc : Act → Prop
  | .addSub _ _ _ d n src => d < 15 ∧ n < 15 ∧ src.NoPc
  | .rsb _ d n _ => d < 15 ∧ n < 15
  | .logic _ _ d n m => d < 15 ∧ n < 15 ∧ m < 15
  | .bic _ d n m => d < 15 ∧ n < 15 ∧ m < 15
  | .shiftImm _ _ d m _ => d < 15 ∧ m < 15
  | .shiftReg _ _ d n m => d < 15 ∧ n < 15 ∧ m < 15
  | .mul _ d n m => d < 15 ∧ n < 15 ∧ m < 15
  | .adr _ d _ => d < 15
  | .extend _ _ _ d m => d < 15 ∧ m < 15
  | .rev _ d m => d < 15 ∧ m < 15
  | .mov _ _ d src _ => d < 15 ∧ src.NoPc
  | .mvnShift _ d m _ => d < 15 ∧ m < 15
  | .cmp _ n src => n < 15 ∧ src.NoPc
  | .tst n m _ => n < 15 ∧ m < 15
  | .branch _ _ => True
  | .bl _ => True
  | .blx m => m < 15
  | .bx m => m < 15
  | .load _ _ t n off => t < 15 ∧ n < 15 ∧ off.NoPc
  | .store _ t n off => t < 15 ∧ n < 15 ∧ off.NoPc
  | .loadLit _ _ _ t _ => t < 15
  | .push _ => True
  | .pop _ => True
  | .ldm n _ _ => n < 15
  | .stm n _ _ => n < 15
  | .cps _ _ _ => True
  | .mrs d _ => d < 15
  | .msr n _ _ => n < 15
  | .plain => True

end Thumb

/-- The registers of the machine hold these words, its memory these bytes. -/
def Shows (s : Machine) (c : Core) : Prop :=
  (∀ k ∈ coreIndices, s.regs (some k) = some ((c.reg k).toNat : Int)) ∧ flat s.mem = c.mem

/-- Executing the object ends normally with these registers and this memory. -/
def EndsIn (i : Instr) (s : Machine) (c : Core) : Prop := ∃ i' s', i.eval s = (.ok i', s') ∧ Shows s' c

/-- Executing the object does what the manual says for this action. -/
def Does (i : Instr) (act : Act) (s : Machine) (c : Core) : Prop := EndsIn i s (act.run i.size c)

/-- `n` consecutive words from an address lie in memory. -/
def Words (mem : List Region) (x : Word) (n : Nat) : Prop := ∀ j, j < n → Inside mem (x + w32 (4 * j)).toNat 4

end Verif
