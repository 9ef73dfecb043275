import Verif.Ref
import Verif.Cases
import Verif.Lemmas.Machine

/-!
# What executing an instruction object does, exactly

For each action, the state after `eval` in terms of 32-bit words. The properties compare
it with `Act.run` of `Verif/Ref.lean`.
-/

namespace Verif
open BS CpuM Thumb Exec

/-! ### Registers and flags -/

theorem reg_set (a : Arm) (k j : Int) (v : Word) :
    (a.set k v).reg j = if j = k ∨ (k = 13 ∧ j = 17) ∨ (k = 17 ∧ j = 13) then keepBits k v else a.reg j := rfl

theorem reg_set_ne (a : Arm) {k j : Int} (v : Word) (h : j ≠ k) (h1 : ¬ (k = 13 ∧ j = 17)) (h2 : ¬ (k = 17 ∧ j = 13)) :
    (a.set k v).reg j = a.reg j := by
  rw [reg_set, if_neg]
  rintro (h' | h' | h')
  · exact h h'
  · exact h1 h'
  · exact h2 h'

theorem reg16_set (a : Arm) (v : Word) : (a.set 16 v).reg 16 = v := rfl

theorem set16_set16 (a : Arm) (v w : Word) : (a.set 16 v).set 16 w = a.set 16 w := by
  apply Arm.ext
  · funext j
    simp only [reg_set]
    split <;> rfl
  · rfl
  · rfl

/-- `Core.next` on machines. -/
def Arm.next (a : Arm) (size : Nat) : Arm := a.set 15 (a.reg 15 + BitVec.ofNat 32 size)

/-- `Core.flags` on machines. -/
def Arm.flags (s : Arm) (on : Bool) (r : Word) (c v : Option Bool) : Arm :=
  if on then s.set 16 (newFlags (s.reg 16) r.msb (r == 0#32) c v) else s

/-- A flag of a machine. -/
def Arm.flag (a : Arm) (k : Nat) : Bool := (a.reg 16).getLsbD k

theorem attr_some {α : Type} {o : Option α} {x : α} (h : o = some x) : attr o = .ok x := by rw [h]; rfl

theorem py_attr {α β : Type} {o : Option α} {x : α} (h : o = some x) (f : α → CpuM β) (s : Machine) :
    (py (attr o) >>= f) s = f x s := py_bind_ok (attr_some h) f s

theorem readReg_conc {r : Option Nat} {k : Nat} (h : IsReg r k) (a : Arm) :
    readReg r a.conc = (.ok (ofBV (a.reg k)), a.conc) := by
  unfold readReg
  rw [py_attr h.1, getR_conc a k h.2]

theorem writeReg_conc {r : Option Nat} {k : Nat} (h : IsReg r k) (a : Arm) (v : Word) :
    writeReg r (ofBV v) a.conc = (.ok (), (a.set k v).conc) := by
  unfold writeReg
  rw [py_attr h.1, setR_conc a k h.2]

theorem advance_conc (i : Instr) (a : Arm) : advance i a.conc = (.ok (), (a.next i.size).conc) := by
  unfold advance
  rw [bind_ok (getPc_conc a), iadd_eq_add (ofBV_wf _), py_bind_ok (add_int_ofBV _ _), setPc_conc]
  rfl

theorem isZeroBit_ofBV {w : Nat} (x : BitVec w) : (ofBV x).isZeroBit = ofBit (x == 0#w) := by
  unfold isZeroBit isZero
  have : (ofBV x).value = 0 ↔ x = 0#w := by
    rw [ofBV_value]
    constructor
    · intro h; exact BitVec.eq_of_toNat_eq (by simpa using h)
    · rintro rfl; simp
  by_cases h : x = 0#w
  · rw [if_pos (decide_eq_true (this.mpr h))]; subst h; simp; rfl
  · have hb : (x == 0#w) = false := beq_eq_false_iff_ne.mpr h
    rw [if_neg (fun e => h (this.mp (of_decide_eq_true e))), hb]; rfl

theorem msb_getLsbD (x : Word) : x.getLsbD 31 = x.msb := by
  rw [BitVec.msb_eq_getLsbD_last]

theorem setFlags_conc {i : Instr} {on : Bool} (h : FlagsOf i on) (a : Arm) (r : Word) (c v : Option Bool) :
    setFlags i (ofBV r) (c.map ofBit) (v.map ofBit) a.conc = (.ok (), (a.flags on r c v).conc) := by
  obtain ⟨s, hs, hw⟩ := h
  unfold setFlags
  rw [py_attr hs, hw]
  cases on
  · rfl
  · simp only [if_true]
    have h31 : (ofBV r).getItem 31 = .ok (ofBit (r.getLsbD 31)) := getItem_ofBV r 31
    rw [py_bind_ok h31, show (31 : Int) = ((31 : Nat) : Int) from rfl, bind_ok (setFlag_conc a 31 (by decide) _), isZeroBit_ofBV,
      show (30 : Int) = ((30 : Nat) : Int) from rfl, bind_ok (setFlag_conc _ 30 (by decide) _), reg16_set, set16_set16, msb_getLsbD]
    unfold Arm.flags newFlags
    cases c with
    | none =>
      cases v with
      | none => rfl
      | some v =>
        have : setFlagOpt 29 (Option.map ofBit none) (a.set 16 (withBit (withBit (a.reg 16) 31 r.msb) 30 (r == 0#32))).conc =
          (.ok (), (a.set 16 (withBit (withBit (a.reg 16) 31 r.msb) 30 (r == 0#32))).conc) := rfl
        rw [bind_ok this]
        show setFlag 28 _ _ = _
        rw [show (28 : Int) = ((28 : Nat) : Int) from rfl, setFlag_conc _ 28 (by decide), reg16_set, set16_set16]
        rfl
    | some c =>
      have : setFlagOpt 29 (Option.map ofBit (some c)) (a.set 16 (withBit (withBit (a.reg 16) 31 r.msb) 30 (r == 0#32))).conc =
        (.ok (), (a.set 16 (withBit (withBit (withBit (a.reg 16) 31 r.msb) 30 (r == 0#32)) 29 c)).conc) := by
        show setFlag 29 _ _ = _
        rw [show (29 : Int) = ((29 : Nat) : Int) from rfl, setFlag_conc _ 29 (by decide), reg16_set, set16_set16]
      rw [bind_ok this]
      cases v with
      | none => rfl
      | some v =>
        show setFlag 28 _ _ = _
        rw [show (28 : Int) = ((28 : Nat) : Int) from rfl, setFlag_conc _ 28 (by decide), reg16_set, set16_set16]
        rfl

theorem setFlags_nz {i : Instr} {on : Bool} (h : FlagsOf i on) (a : Arm) (r : Word) :
    setFlags i (ofBV r) none none a.conc = (.ok (), (a.flags on r none none).conc) := setFlags_conc h a r none none

theorem setFlags_c {i : Instr} {on : Bool} (h : FlagsOf i on) (a : Arm) (r : Word) (c : Bool) :
    setFlags i (ofBV r) (some (ofBit c)) none a.conc = (.ok (), (a.flags on r (some c) none).conc) :=
  setFlags_conc h a r (some c) none

theorem setFlags_cv {i : Instr} {on : Bool} (h : FlagsOf i on) (a : Arm) (r : Word) (c v : Bool) :
    setFlags i (ofBV r) (some (ofBit c)) (some (ofBit v)) a.conc = (.ok (), (a.flags on r (some c) (some v)).conc) :=
  setFlags_conc h a r (some c) (some v)

theorem flagsOf_withImm {i : Instr} {on : Bool} (h : FlagsOf i on) (v : BS) : FlagsOf (withImm i v) on := by
  obtain ⟨s, hs, hw⟩ := h
  refine ⟨s, ?_, hw⟩
  unfold Exec.withImm
  cases i.imm32 <;> exact hs

theorem withImm_d (i : Instr) (v : BS) : (withImm i v).d = i.d := by unfold withImm; cases i.imm32 <;> rfl

theorem withImm_size (i : Instr) (v : BS) : (withImm i v).size = i.size := by unfold withImm; cases i.imm32 <;> rfl

theorem flagC_conc (a : Arm) : getFlag 29 a.conc = (.ok (ofBit (a.flag 29)), a.conc) := getFlag_conc a 29

/-- What the program reads as second operand. -/
def Thumb.Src.got (a : Arm) : Src → Word
  | .reg m => a.reg m
  | .imm v => v

theorem immOrReg_conc {i : Instr} {src : Src} (h : src.Of i) (a : Arm) :
    immOrReg i a.conc = (.ok (ofBV (src.got a)), a.conc) := by
  unfold immOrReg
  cases src with
  | reg m =>
    obtain ⟨h1, h2, h3⟩ := h
    rw [h1]
    exact readReg_conc ⟨h2, h3⟩ a
  | imm v =>
    obtain ⟨h1, h2⟩ := h
    rw [h2]
    rfl

theorem cmpOperand_conc {i : Instr} {src : Src} (h : src.Of i) (a : Arm) :
    cmpOperand i a.conc = (.ok (ofBV (src.got a)), a.conc) := by
  unfold cmpOperand
  cases src with
  | reg m =>
    obtain ⟨h1, h2, h3⟩ := h
    rw [h2]
    exact getR_conc a m h3
  | imm v =>
    obtain ⟨h1, h2⟩ := h
    rw [h1]
    exact py_ok (attr_some h2) _

theorem invert_if (b : Bool) (y : Word) : (if b then (ofBV y).invert else ofBV y) = ofBV (if b then ~~~y else y) := by
  cases b
  · rfl
  · exact invert_ofBV y

theorem bit_if (b : Bool) : (if b then bit1 else bit0) = ofBit b := by cases b <;> rfl

theorem carryIn_conc (carry sub : Bool) (a : Arm) :
    carryIn carry sub a.conc = (.ok (ofBit (if carry then a.flag 29 else sub)), a.conc) := by
  unfold carryIn
  cases carry
  · simp only [Bool.false_eq_true, if_false]; rw [bit_if]; rfl
  · exact flagC_conc a

/-! ### Data processing -/

/-- The state after AddSub, ReverseSubtract with the operands `x`, `y` and carry `c`. -/
def Arm.afterAdd (a : Arm) (size : Nat) (flags : Bool) (d : Nat) (x y : Word) (c : Bool) : Arm :=
  let r := C17.spoil (C17.sum x y c)
  ((a.set d r).flags flags r (some (C17.carryOut x y c)) (some (C17.overflow x y c))).next size

theorem addSub_exact {i : Instr} {sub carry flags : Bool} {d n : Nat} {src : Src}
    (h : (Act.addSub sub carry flags d n src).Of i) (a : Arm) :
    i.eval a.conc =
      (.ok (withImm i (ofBV (C17.spoil (if sub then ~~~src.got a else src.got a)))),
        (a.afterAdd i.size flags d (a.reg n) (if sub then ~~~src.got a else src.got a)
          (if carry then a.flag 29 else sub)).conc) := by
  obtain ⟨hk, hsub, hcarry, hf, hd, hn, hs⟩ := h
  unfold Instr.eval
  rw [hk]
  show Exec.addSub i a.conc = _
  unfold Exec.addSub
  rw [py_attr hsub, bind_ok (readReg_conc hn a), bind_ok (immOrReg_conc hs a), py_attr hcarry]
  rw [bind_ok (carryIn_conc carry sub a), invert_if, py_bind_ok (C17.add_with_carry_exact _ _ _ (by decide))]
  simp only
  rw [bind_ok (writeReg_conc (by rw [withImm_d]; exact hd) a _),
    bind_ok (setFlags_cv (flagsOf_withImm hf _) _ _ _ _), bind_ok (advance_conc _ _), withImm_size]
  rfl

theorem rsb_exact {i : Instr} {flags : Bool} {d n : Nat} {imm : Word} (h : (Act.rsb flags d n imm).Of i) (a : Arm) :
    i.eval a.conc = (.ok (withImm i (ofBV (C17.spoil imm))),
      (a.afterAdd i.size flags d (~~~a.reg n) imm true).conc) := by
  obtain ⟨hk, hf, hd, hn, hi⟩ := h
  unfold Instr.eval
  rw [hk]
  show Exec.reverseSubtract i a.conc = _
  unfold Exec.reverseSubtract
  rw [bind_ok (readReg_conc hn a), py_attr hi, invert_ofBV,
    py_bind_ok (show addWithCarry (ofBV (~~~a.reg n)) (ofBV imm) bit1 = _ from C17.add_with_carry_exact _ _ true (by decide))]
  simp only
  rw [bind_ok (writeReg_conc (by rw [withImm_d]; exact hd) a _),
    bind_ok (setFlags_cv (flagsOf_withImm hf _) _ _ _ _), bind_ok (advance_conc _ _), withImm_size]
  rfl

/-- The state after an instruction that writes `r`, sets flags and goes on. -/
def Arm.afterOp (a : Arm) (size : Nat) (flags : Bool) (d : Nat) (r : Word) (c : Option Bool) : Arm :=
  ((a.set d r).flags flags r c none).next size

theorem applyOp_ofBV (f : BitFn) (x y : Word) : applyOp f (ofBV x) (ofBV y) = .ok (ofBV (logical f x y)) := by
  cases f
  · exact and_ofBV x y
  · exact xor_ofBV x y
  · exact or_ofBV x y

theorem logic_exact {i : Instr} {f : BitFn} {flags : Bool} {d n m : Nat} (h : (Act.logic f flags d n m).Of i) (a : Arm) :
    i.eval a.conc = (.ok i, (a.afterOp i.size flags d (logical f (a.reg n) (a.reg m)) none).conc) := by
  obtain ⟨hk, hop, hf, hd, hn, hm⟩ := h
  unfold Instr.eval
  rw [hk]
  show Exec.bitOp i a.conc = _
  unfold Exec.bitOp
  rw [py_attr hop, bind_ok (readReg_conc hn a), bind_ok (readReg_conc hm a), py_bind_ok (applyOp_ofBV _ _ _),
    bind_ok (writeReg_conc hd a _), bind_ok (setFlags_nz hf _ _), bind_ok (advance_conc _ _)]
  rfl

theorem bic_exact {i : Instr} {flags : Bool} {d n m : Nat} (h : (Act.bic flags d n m).Of i) (a : Arm) :
    i.eval a.conc = (.ok i, (a.afterOp i.size flags d (a.reg n &&& ~~~a.reg m) none).conc) := by
  obtain ⟨hk, hf, hd, hn, hm⟩ := h
  unfold Instr.eval
  rw [hk]
  show Exec.bitClear i a.conc = _
  unfold Exec.bitClear
  rw [bind_ok (readReg_conc hn a), bind_ok (readReg_conc hm a), invert_ofBV, py_bind_ok (and_ofBV _ _),
    bind_ok (writeReg_conc hd a _), bind_ok (setFlags_nz hf _ _), bind_ok (advance_conc _ _)]
  rfl

theorem shiftImm_exact {i : Instr} {t : SRType} {flags : Bool} {d m k : Nat} (h : (Act.shiftImm t flags d m k).Of i)
    (ht : t = .rrx → k = 1) (a : Arm) :
    i.eval a.conc = (.ok i, (a.afterOp i.size flags d (C18.armShift (a.reg m) (a.flag 29) t k).1
      (some (C18.armShift (a.reg m) (a.flag 29) t k).2)).conc) := by
  obtain ⟨hk, hty, hsn, hf, hd, hn⟩ := h
  unfold Instr.eval
  rw [hk]
  show Exec.shiftOp i a.conc = _
  unfold Exec.shiftOp
  have hamt : shiftAmount i a.conc = (.ok k, a.conc) := by
    unfold shiftAmount
    rw [hsn]
    rfl
  rw [bind_ok hamt, bind_ok (readReg_conc hn a), py_attr hty, bind_ok (flagC_conc a),
    py_bind_ok (C18.shift_c_spec _ _ _ _ (by decide) ht)]
  simp only
  rw [bind_ok (writeReg_conc hd a _), bind_ok (setFlags_c hf _ _ _), bind_ok (advance_conc _ _)]
  rfl

theorem slice_low {w : Nat} (x : BitVec w) (n : Nat) (h : n ≤ w) : (ofBV x).slice 0 n = .ok (ofBV (x.extractLsb' 0 n)) :=
  slice_ofBV x 0 n (by omega) h

theorem low_byte (x : Word) : (x.extractLsb' 0 8).toNat = x.toNat % 256 := by
  rw [BitVec.extractLsb'_toNat]; simp

theorem shiftReg_exact {i : Instr} {t : SRType} {flags : Bool} {d n m : Nat} (h : (Act.shiftReg t flags d n m).Of i)
    (ht : t ≠ .rrx) (a : Arm) :
    i.eval a.conc = (.ok i, (a.afterOp i.size flags d (C18.armShift (a.reg n) (a.flag 29) t ((a.reg m).toNat % 256)).1
      (some (C18.armShift (a.reg n) (a.flag 29) t ((a.reg m).toNat % 256)).2)).conc) := by
  obtain ⟨hk, hty, hsn, hf, hd, hn, hm⟩ := h
  unfold Instr.eval
  rw [hk]
  show Exec.shiftOp i a.conc = _
  unfold Exec.shiftOp
  have hamt : shiftAmount i a.conc = (.ok ((a.reg m).toNat % 256), a.conc) := by
    unfold shiftAmount
    rw [hsn]
    simp only
    have hsl : (ofBV (a.reg m)).slice 0 8 = .ok (ofBV ((a.reg m).extractLsb' 0 8)) := slice_low _ 8 (by decide)
    rw [bind_ok (readReg_conc hm a), py_bind_ok hsl]
    show (Except.ok _, _) = _
    rw [unsigned, ofBV_value, low_byte]
  rw [bind_ok hamt, bind_ok (readReg_conc hn a), py_attr hty, bind_ok (flagC_conc a),
    py_bind_ok (C18.shift_c_spec _ _ _ _ (by decide) (fun h => absurd h ht))]
  simp only
  rw [bind_ok (writeReg_conc hd a _), bind_ok (setFlags_c hf _ _ _), bind_ok (advance_conc _ _)]
  rfl

theorem mul_exact {i : Instr} {flags : Bool} {d n m : Nat} (h : (Act.mul flags d n m).Of i) (a : Arm) :
    i.eval a.conc = (.ok i, (a.afterOp i.size flags d (a.reg n * a.reg m) none).conc) := by
  obtain ⟨hk, hf, hd, hn, hm⟩ := h
  unfold Instr.eval
  rw [hk]
  show Exec.multiply i a.conc = _
  unfold Exec.multiply
  have hp : init (.int ((ofBV (a.reg n)).signed.1 * (ofBV (a.reg m)).signed.1)) (some 32) = .ok (ofBV (a.reg n * a.reg m)) := by
    rw [show (some 32 : Option Int) = some ((32 : Nat) : Int) from rfl, init_int_width, signed_ofBV _ (by decide),
      signed_ofBV _ (by decide), ofInt_ofBV]
    congr 2
    rw [BitVec.ofInt_mul, BitVec.ofInt_toInt, BitVec.ofInt_toInt]
  rw [bind_ok (readReg_conc hn a), bind_ok (readReg_conc hm a), py_bind_ok hp,
    bind_ok (writeReg_conc hd a _), bind_ok (setFlags_nz hf _ _), bind_ok (advance_conc _ _)]
  rfl

/-- The state after an instruction that writes `r` and goes on. -/
def Arm.afterWrite (a : Arm) (size : Nat) (d : Nat) (r : Word) : Arm := (a.set d r).next size

theorem align_word (x : Word) : align (ofBV x) 4 = .ok (ofBV (align4 x)) := by
  have := C20.align_eq x 2
  rw [show (2 : Int) ^ 2 = 4 from rfl] at this
  rw [this, bv_eq_ofBV]
  congr 2
  apply BitVec.eq_of_getLsbD_eq
  intro k hk
  rw [BitVec.getLsbD_ofNat, align4, BitVec.getLsbD_and, BitVec.getLsbD_not,
    show x.toNat / 2 ^ 2 * 2 ^ 2 = 2 ^ 2 * (x.toNat / 2 ^ 2) by omega, Nat.testBit_two_pow_mul, Nat.testBit_div_two_pow]
  have h3 : (3#32).getLsbD k = decide (k < 2) := by
    have := Nat.testBit_two_pow_sub_one 2 k
    rw [← this]
    rfl
  rw [h3, BitVec.testBit_toNat]
  by_cases h2 : 2 ≤ k
  · simp [hk, h2, show ¬ k < 2 by omega, show k - 2 + 2 = k by omega]
  · simp [hk, h2, show k < 2 by omega]

theorem pcBase_conc (a : Arm) : ∀ {β : Type} (f : BS → CpuM β),
    (do let p ← pcForInstr; let base ← py (align p 4); f base) a.conc = f (ofBV (align4 (a.reg 15 + 4#32))) a.conc := by
  intro β f
  rw [bind_ok (pcForInstr_conc a), py_bind_ok (align_word _)]

theorem plusMinus (add : Bool) (x y : Word) :
    (if add then (ofBV x).add (.bs (ofBV y)) else (ofBV x).sub (.bs (ofBV y))) = .ok (ofBV (if add then x + y else x - y)) := by
  cases add
  · exact sub_ofBV x y
  · exact add_ofBV x y

theorem adr_exact {i : Instr} {add : Bool} {d : Nat} {imm : Word} (h : (Act.adr add d imm).Of i) (a : Arm) :
    i.eval a.conc = (.ok i, (a.afterWrite i.size d
      (if add then align4 (a.reg 15 + 4#32) + imm else align4 (a.reg 15 + 4#32) - imm)).conc) := by
  obtain ⟨hk, hadd, hd, hi⟩ := h
  unfold Instr.eval
  rw [hk]
  show Exec.addressToRegister i a.conc = _
  unfold Exec.addressToRegister
  rw [py_attr hadd, bind_ok (pcForInstr_conc a), py_bind_ok (align_word _), py_attr hi, py_bind_ok (plusMinus _ _ _),
    bind_ok (writeReg_conc hd a _), bind_ok (advance_conc _ _)]
  rfl

theorem extend_value (sgn : Bool) (x : Word) (w : Nat) (h0 : 0 < w) (hw : w ≤ 32) :
    extendData sgn (ofBV (x.extractLsb' 0 w)) = .ok (ofBV (extended sgn w x.toNat)) := by
  have he : x.extractLsb' 0 w = BitVec.ofNat w x.toNat := by
    apply BitVec.eq_of_toNat_eq
    rw [BitVec.extractLsb'_toNat]; simp
  unfold extendData extended
  rw [he]
  cases sgn
  · exact zeroExtend_ofBV _ 32 hw
  · exact signExtend_ofBV _ 32 hw h0

theorem extend_exact {i : Instr} {sgn : Bool} {width rotation d m : Nat} (h : (Act.extend sgn width rotation d m).Of i)
    (hw : 0 < width ∧ width ≤ 32) (hr : rotation < 32) (a : Arm) :
    i.eval a.conc = (.ok i, (a.afterWrite i.size d (extended sgn width ((a.reg m).rotateRight rotation).toNat)).conc) := by
  obtain ⟨hk, hsg, hwd, hrot, hd, hm⟩ := h
  unfold Instr.eval
  rw [hk]
  show Exec.extend i a.conc = _
  unfold Exec.extend
  have hror : ror (ofBV (a.reg m)) (rotation : Int) = .ok (ofBV ((a.reg m).rotateRight rotation)) := by
    rw [(C16.plain_shifts (a.reg m) rotation).2.2.2 (by decide), Nat.mod_eq_of_lt hr]
  rw [bind_ok (readReg_conc hm a), py_attr hrot, py_bind_ok hror, py_attr hwd,
    py_bind_ok (slice_low _ width hw.2), py_attr hsg]
  have hex := extend_value sgn ((a.reg m).rotateRight rotation) width hw.1 hw.2
  unfold extendData at hex
  rw [py_bind_ok hex, bind_ok (writeReg_conc hd a _), bind_ok (advance_conc _ _)]
  rfl

/-! ### Byte reversal -/

theorem put_bits {n : Nat} (z : Word) (i j : Nat) (v : BitVec n) (hij : i ≤ j) (hj : j ≤ 32) :
    ∃ r : Word, put (ofBV z) i j (.bs (ofBV v)) = .ok (ofBV r) ∧
      ∀ k, r.getLsbD k = if i ≤ k ∧ k < j then v.getLsbD (k - i) else z.getLsbD k := by
  obtain ⟨r, h1, h2, h3, h4⟩ := C05.slice_assignment (ofBV z) i j hij (by simpa using hj) (ofBV v)
  have hwf : r.WF := C01.setSlice_wf (ofBV_wf z) h1
  have hw : r.width = 32 := by rw [h2]; rfl
  have hx := hwf.eq_ofBV hw
  generalize BitVec.ofNat 32 r.value = x at hx
  refine ⟨x, ?_, ?_⟩
  · unfold put; rw [h1, hx]
  · intro k
    have := h4 k
    rw [hx] at this
    simpa [ofBV_value, BitVec.testBit_toNat] using this

theorem slice_8 (x : Word) (i j : Nat) (hij : i ≤ j) (hj : j ≤ 32) :
    (ofBV x).slice i j = .ok (ofBV (x.extractLsb' i (j - i))) := slice_ofBV x i j hij hj

theorem rev_value (x : Word) (sgn : Option Bool) : reversedBytes 4 sgn (ofBV x) = .ok (ofBV (swap32 x)) := by
  have s1 : (ofBV x).slice 0 8 = .ok (ofBV (x.extractLsb' 0 8)) := slice_8 x 0 8 (by decide) (by decide)
  have s2 : (ofBV x).slice 8 16 = .ok (ofBV (x.extractLsb' 8 8)) := slice_8 x 8 16 (by decide) (by decide)
  have s3 : (ofBV x).slice 16 24 = .ok (ofBV (x.extractLsb' 16 8)) := slice_8 x 16 24 (by decide) (by decide)
  have s4 : (ofBV x).slice 24 32 = .ok (ofBV (x.extractLsb' 24 8)) := slice_8 x 24 32 (by decide) (by decide)
  obtain ⟨r1, p1, q1⟩ := put_bits 0#32 24 32 (x.extractLsb' 0 8) (by decide) (by decide)
  obtain ⟨r2, p2, q2⟩ := put_bits r1 16 24 (x.extractLsb' 8 8) (by decide) (by decide)
  obtain ⟨r3, p3, q3⟩ := put_bits r2 8 16 (x.extractLsb' 16 8) (by decide) (by decide)
  obtain ⟨r4, p4, q4⟩ := put_bits r3 0 8 (x.extractLsb' 24 8) (by decide) (by decide)
  have e : r4 = swap32 x := by
    apply BitVec.eq_of_getLsbD_eq
    intro k hk
    rw [q4, q3, q2, q1]
    unfold swap32
    simp only [BitVec.getLsbD_append, BitVec.getLsbD_extractLsb']
    grind
  have p1' : put (ofBV 0#32) 24 32 (.bs (ofBV (x.extractLsb' 0 8))) = .ok (ofBV r1) := p1
  have p2' : put (ofBV r1) 16 24 (.bs (ofBV (x.extractLsb' 8 8))) = .ok (ofBV r2) := p2
  have p3' : put (ofBV r2) 8 16 (.bs (ofBV (x.extractLsb' 16 8))) = .ok (ofBV r3) := p3
  have p4' : put (ofBV r3) 0 8 (.bs (ofBV (x.extractLsb' 24 8))) = .ok (ofBV r4) := p4
  unfold reversedBytes
  rw [show zeros 32 = .ok (ofBV 0#32) from rfl, okBind, if_pos rfl, s1, okBind, p1', okBind, s2, okBind, p2', okBind, s3, okBind,
    p3', okBind, s4, okBind, p4', e]

theorem rev16_value (x : Word) : reversedBytes 2 (some false) (ofBV x) = .ok (ofBV (swap16 x)) := by
  have s1 : (ofBV x).slice 0 8 = .ok (ofBV (x.extractLsb' 0 8)) := slice_8 x 0 8 (by decide) (by decide)
  have s2 : (ofBV x).slice 8 16 = .ok (ofBV (x.extractLsb' 8 8)) := slice_8 x 8 16 (by decide) (by decide)
  have s3 : (ofBV x).slice 16 24 = .ok (ofBV (x.extractLsb' 16 8)) := slice_8 x 16 24 (by decide) (by decide)
  have s4 : (ofBV x).slice 24 32 = .ok (ofBV (x.extractLsb' 24 8)) := slice_8 x 24 32 (by decide) (by decide)
  obtain ⟨r1, p1, q1⟩ := put_bits 0#32 24 32 (x.extractLsb' 16 8) (by decide) (by decide)
  obtain ⟨r2, p2, q2⟩ := put_bits r1 16 24 (x.extractLsb' 24 8) (by decide) (by decide)
  obtain ⟨r3, p3, q3⟩ := put_bits r2 8 16 (x.extractLsb' 0 8) (by decide) (by decide)
  obtain ⟨r4, p4, q4⟩ := put_bits r3 0 8 (x.extractLsb' 8 8) (by decide) (by decide)
  have e : r4 = swap16 x := by
    apply BitVec.eq_of_getLsbD_eq
    intro k hk
    rw [q4, q3, q2, q1]
    unfold swap16
    simp only [BitVec.getLsbD_append, BitVec.getLsbD_extractLsb']
    grind
  have p1' : put (ofBV 0#32) 24 32 (.bs (ofBV (x.extractLsb' 16 8))) = .ok (ofBV r1) := p1
  have p2' : put (ofBV r1) 16 24 (.bs (ofBV (x.extractLsb' 24 8))) = .ok (ofBV r2) := p2
  have p3' : put (ofBV r2) 8 16 (.bs (ofBV (x.extractLsb' 0 8))) = .ok (ofBV r3) := p3
  have p4' : put (ofBV r3) 0 8 (.bs (ofBV (x.extractLsb' 8 8))) = .ok (ofBV r4) := p4
  unfold reversedBytes
  rw [show zeros 32 = .ok (ofBV 0#32) from rfl, okBind, if_neg (by decide), if_pos rfl, show attr (some false) = .ok false from rfl,
    okBind, if_neg (by decide), s3, okBind, p1', okBind, s4, okBind, p2', okBind, s1, okBind, p3', okBind, s2, okBind, p4', e]

theorem revsh_value (x : Word) : reversedBytes 2 (some true) (ofBV x) = .ok (ofBV (swapsh x)) := by
  have s1 : (ofBV x).slice 0 8 = .ok (ofBV (x.extractLsb' 0 8)) := slice_8 x 0 8 (by decide) (by decide)
  have s2 : (ofBV x).slice 8 16 = .ok (ofBV (x.extractLsb' 8 8)) := slice_8 x 8 16 (by decide) (by decide)
  have s3 : (ofBV (x.extractLsb' 0 8)).signExtend 24 = .ok (ofBV ((x.extractLsb' 0 8).signExtend 24)) :=
    signExtend_ofBV _ 24 (by decide) (by decide)
  obtain ⟨r1, p1, q1⟩ := put_bits 0#32 8 32 ((x.extractLsb' 0 8).signExtend 24) (by decide) (by decide)
  obtain ⟨r2, p2, q2⟩ := put_bits r1 0 8 (x.extractLsb' 8 8) (by decide) (by decide)
  have e : r2 = swapsh x := by
    apply BitVec.eq_of_getLsbD_eq
    intro k hk
    rw [q2, q1]
    unfold swapsh
    simp only [BitVec.getLsbD_append, BitVec.getLsbD_extractLsb', BitVec.getLsbD_signExtend, BitVec.msb_eq_getLsbD_last]
    grind
  have p1' : put (ofBV 0#32) 8 32 (.bs (ofBV ((x.extractLsb' 0 8).signExtend 24))) = .ok (ofBV r1) := p1
  have p2' : put (ofBV r1) 0 8 (.bs (ofBV (x.extractLsb' 8 8))) = .ok (ofBV r2) := p2
  unfold reversedBytes
  rw [show zeros 32 = .ok (ofBV 0#32) from rfl, okBind, if_neg (by decide), if_pos rfl, show attr (some true) = .ok true from rfl,
    okBind, if_pos rfl, s1, okBind, s3, okBind, p1', okBind, s2, okBind, p2', e]

/-- The result of a byte reversal. -/
def Thumb.RevKind.apply : RevKind → Word → Word
  | .rev => swap32
  | .rev16 => swap16
  | .revsh => swapsh

theorem rev_exact {i : Instr} {kind : RevKind} {d m : Nat} (h : (Act.rev kind d m).Of i) (a : Arm) :
    i.eval a.conc = (.ok i, (a.afterWrite i.size d (kind.apply (a.reg m))).conc) := by
  obtain ⟨hk, hw, hs, hd, hm⟩ := h
  unfold Instr.eval
  rw [hk]
  show Exec.byteReverse i a.conc = _
  unfold Exec.byteReverse
  have hv : reversedBytes (if kind = .rev then 4 else 2) i.signed (ofBV (a.reg m)) = .ok (ofBV (kind.apply (a.reg m))) := by
    cases kind with
    | rev => exact rev_value _ _
    | rev16 => rw [hs.resolve_left (by decide)]; exact rev16_value _
    | revsh => rw [hs.resolve_left (by decide)]; exact revsh_value _
  rw [bind_ok (readReg_conc hm a), py_attr hw, py_bind_ok hv, bind_ok (writeReg_conc hd a _), bind_ok (advance_conc _ _)]
  rfl

/-! ### Moves, comparisons -/

theorem move_operand {i : Instr} {src : Src} (h : src.Of i) (a : Arm) :
    moveOperand i a.conc = (.ok (ofBV (src.got a), if src = .reg 15 then { i with setflags := some .never } else i), a.conc) := by
  unfold moveOperand
  cases src with
  | reg m =>
    obtain ⟨h1, h2, h3⟩ := h
    rw [h2]
    simp only
    rw [bind_ok (getR_conc a m h3), pure_run]
    by_cases hm : m = 15
    · rw [if_pos hm, if_pos (by rw [hm])]; rfl
    · rw [if_neg hm, if_neg (by simpa using hm)]; rfl
  | imm v =>
    obtain ⟨h1, h2⟩ := h
    rw [h1]
    simp only
    rw [py_attr h2]
    rfl

/-- The instruction object after Move. -/
def movedInstr (i : Instr) (neg : Bool) (src : Src) : Instr :=
  match src with
  | .reg m => if m = 15 then { i with setflags := some .never } else i
  | .imm v => if neg then withImm i (ofBV (~~~v)) else i

theorem flag_set (a : Arm) (d : Nat) (h : d < 16) (v : Word) (k : Nat) : (a.set d v).flag k = a.flag k := by
  unfold Arm.flag
  rw [reg_set_ne] <;> omega

theorem newFlags_same (x : Word) (n z : Bool) (v : Option Bool) :
    newFlags x n z (some (x.getLsbD 29)) v = newFlags x n z none v := by
  have : withBit (withBit (withBit x 31 n) 30 z) 29 (x.getLsbD 29) = withBit (withBit x 31 n) 30 z := by
    apply BitVec.eq_of_getLsbD_eq
    intro k hk
    rw [getLsbD_withBit _ 29 (by decide)]
    by_cases h : k = 29
    · subst h
      rw [if_pos rfl, getLsbD_withBit _ 30 (by decide), if_neg (by decide), getLsbD_withBit _ 31 (by decide), if_neg (by decide)]
    · rw [if_neg h]
  unfold newFlags
  simp only [this]

theorem mov_exact {i : Instr} {neg flags : Bool} {d : Nat} {src : Src} {carry : Option Bool} (h : (Act.mov neg flags d src carry).Of i) (a : Arm) :
    i.eval a.conc = (.ok (movedInstr i neg src),
      (a.afterOp i.size (flags && !decide (src = .reg 15)) d (if neg then ~~~src.got a else src.got a) none).conc) := by
  obtain ⟨hk, hneg, hf, hd, hs⟩ := h
  unfold Instr.eval
  rw [hk]
  show Exec.move i a.conc = _
  unfold Exec.move
  rw [bind_ok (move_operand hs a)]
  simp only
  generalize hj : (if src = Src.reg 15 then { i with setflags := some SetFlags.never } else i : Instr) = j
  have h1 : j.negate = some neg := by rw [← hj]; split <;> exact hneg
  have h2 : IsReg j.d d := by rw [← hj]; split <;> exact hd
  have h3 : FlagsOf j (flags && !decide (src = .reg 15)) := by
    rw [← hj]
    split
    · next h => exact ⟨.never, rfl, by simp [h, wantsFlags]⟩
    · next h => simpa [h] using hf
  have h4 : j.size = i.size := by rw [← hj]; split <;> rfl
  have h5 : j.m = i.m := by rw [← hj]; split <;> rfl
  have h6 : j.imm32 = i.imm32 := by rw [← hj]; split <;> rfl
  rw [py_attr h1, invert_if]
  have hjj : (if neg = true ∧ j.m = none then withImm j (ofBV (if neg then ~~~src.got a else src.got a)) else j) =
      movedInstr i neg src := by
    rw [h5]
    cases src with
    | reg m =>
      rw [if_neg (by rw [hs.2.1]; simp), ← hj]
      unfold movedInstr
      by_cases hm : m = 15
      · simp [hm]
      · simp [hm]
    | imm v =>
      have : j = i := by rw [← hj]; simp
      unfold movedInstr
      rw [hs.1, this]
      cases neg <;> simp [Src.got]
  rw [hjj]
  have h7 : IsReg (movedInstr i neg src).d d ∧ FlagsOf (movedInstr i neg src) (flags && !decide (src = .reg 15)) ∧
      (movedInstr i neg src).size = i.size := by
    rw [← hjj]
    split
    · exact ⟨by rw [withImm_d]; exact h2, flagsOf_withImm h3 _, by rw [withImm_size, h4]⟩
    · exact ⟨h2, h3, h4⟩
  obtain ⟨h7, h8, h9⟩ := h7
  rw [bind_ok (writeReg_conc h7 a _), bind_ok (flagC_conc _), bind_ok (setFlags_c h8 _ _ _), bind_ok (advance_conc _ _), h9]
  unfold Arm.afterOp Arm.flags
  rw [show (a.set (↑d) (if neg = true then ~~~src.got a else src.got a)).flag 29 =
    ((a.set (↑d) (if neg = true then ~~~src.got a else src.got a)).reg 16).getLsbD 29 from rfl, newFlags_same]
  rfl

theorem mvnShift_exact {i : Instr} {flags : Bool} {d m : Nat} {sh : SRType × Nat} (h : (Act.mvnShift flags d m sh).Of i)
    (a : Arm) : i.eval a.conc = (.error .nameError, a.conc) := by
  obtain ⟨hk, _⟩ := h
  unfold Instr.eval
  rw [hk]
  rfl

theorem setFlag31 (a : Arm) (b : Bool) : setFlag 31 (.bs (ofBit b)) a.conc = (.ok (), (a.set 16 (withBit (a.reg 16) 31 b)).conc) :=
  setFlag_conc a 31 (by decide) b
theorem setFlag30 (a : Arm) (b : Bool) : setFlag 30 (.bs (ofBit b)) a.conc = (.ok (), (a.set 16 (withBit (a.reg 16) 30 b)).conc) :=
  setFlag_conc a 30 (by decide) b
theorem setFlag29 (a : Arm) (b : Bool) : setFlag 29 (.bs (ofBit b)) a.conc = (.ok (), (a.set 16 (withBit (a.reg 16) 29 b)).conc) :=
  setFlag_conc a 29 (by decide) b
theorem setFlag28 (a : Arm) (b : Bool) : setFlag 28 (.bs (ofBit b)) a.conc = (.ok (), (a.set 16 (withBit (a.reg 16) 28 b)).conc) :=
  setFlag_conc a 28 (by decide) b

theorem getItem31 (x : Word) : (ofBV x).getItem 31 = .ok (ofBit x.msb) := by
  rw [← msb_getLsbD]; exact getItem_ofBV x 31

theorem cmp_exact {i : Instr} {sub : Bool} {n : Nat} {src : Src} (h : (Act.cmp sub n src).Of i) (a : Arm) :
    i.eval a.conc =
      (.ok (withImm i (ofBV (C17.spoil (if sub then ~~~src.got a else src.got a)))),
        ((a.flags true (C17.spoil (C17.sum (a.reg n) (if sub then ~~~src.got a else src.got a) sub))
          (some (C17.carryOut (a.reg n) (if sub then ~~~src.got a else src.got a) sub))
          (some (C17.overflow (a.reg n) (if sub then ~~~src.got a else src.got a) sub))).next i.size).conc) := by
  obtain ⟨hk, hneg, hn, hs⟩ := h
  unfold Instr.eval
  rw [hk]
  show Exec.compare i a.conc = _
  unfold Exec.compare
  rw [bind_ok (cmpOperand_conc hs a), py_attr hneg, bind_ok (readReg_conc hn a), invert_if, bit_if,
    py_bind_ok (C17.add_with_carry_exact _ _ _ (by decide))]
  simp only
  have hi : (if i.m = none then withImm i (ofBV (C17.spoil (if sub then ~~~src.got a else src.got a))) else i) =
      withImm i (ofBV (C17.spoil (if sub then ~~~src.got a else src.got a))) := by
    cases src with
    | reg m =>
      rw [if_neg (by rw [hs.2.1]; simp)]
      unfold withImm
      rw [hs.1]
    | imm v => rw [if_pos hs.1]
  rw [hi, py_bind_ok (getItem31 _), bind_ok (setFlag31 _ _), isZeroBit_ofBV, bind_ok (setFlag30 _ _), bind_ok (setFlag29 _ _),
    bind_ok (setFlag28 _ _), bind_ok (advance_conc _ _), withImm_size]
  simp only [reg16_set, set16_set16]
  rfl

theorem tst_exact {i : Instr} {n m : Nat} {sh : SRType × Nat} (h : (Act.tst n m sh).Of i) (ht : sh.1 = .rrx → sh.2 = 1) (a : Arm) :
    i.eval a.conc = (.ok i, ((a.flags true (a.reg n &&& (C18.armShift (a.reg m) (a.flag 29) sh.1 sh.2).1)
      (some (C18.armShift (a.reg m) (a.flag 29) sh.1 sh.2).2) none).next i.size).conc) := by
  obtain ⟨hk, hn, hm, hst, hsn⟩ := h
  unfold Instr.eval
  rw [hk]
  show Exec.test i a.conc = _
  unfold Exec.test
  rw [bind_ok (readReg_conc hm a), py_attr hst, py_attr hsn, bind_ok (flagC_conc a),
    py_bind_ok (C18.shift_c_spec _ _ _ _ (by decide) ht)]
  simp only
  rw [bind_ok (readReg_conc hn a), py_bind_ok (and_ofBV _ _), py_bind_ok (getItem31 _), bind_ok (setFlag31 _ _), isZeroBit_ofBV,
    bind_ok (setFlag30 _ _), bind_ok (setFlag29 _ _), bind_ok (advance_conc _ _)]
  simp only [reg16_set, set16_set16]
  rfl

theorem plain_exact {i : Instr} (h : Act.plain.Of i) (a : Arm) : i.eval a.conc = (.ok i, (a.next i.size).conc) := by
  unfold Instr.eval
  rw [show i.klass = .instruction from h]
  show Exec.plain i a.conc = _
  unfold Exec.plain
  rw [bind_ok (advance_conc _ _)]
  rfl

theorem msr_exact {i : Instr} {n : Nat} {k : BitVec 2} {s : BitVec 8} (h : (Act.msr n k s).Of i) (a : Arm) :
    i.eval a.conc = (.ok i, (a.next i.size).conc) := by
  unfold Instr.eval
  rw [h.1]
  show Exec.plain i a.conc = _
  unfold Exec.plain
  rw [bind_ok (advance_conc _ _)]
  rfl

/-! ### Branches -/

theorem flagIs_conc (a : Arm) (k : Nat) (b : Bool) :
    flagIs k (if b then 1 else 0) a.conc = (.ok (a.flag k == b), a.conc) := by
  unfold flagIs
  rw [bind_ok (getFlag_conc a k)]
  unfold Arm.flag
  generalize (a.reg 16).getLsbD k = f
  cases f <;> cases b <;> rfl

theorem flagsEqual_conc (a : Arm) : flagsEqual a.conc = (.ok (a.flag 31 == a.flag 28), a.conc) := by
  unfold flagsEqual
  rw [bind_ok (show getFlag 31 a.conc = _ from getFlag_conc a 31), bind_ok (show getFlag 28 a.conc = _ from getFlag_conc a 28)]
  unfold Arm.flag
  generalize (a.reg 16).getLsbD 31 = f
  generalize (a.reg 16).getLsbD 28 = g
  cases f <;> cases g <;> rfl

theorem flagsDiffer_conc (a : Arm) : flagsDiffer a.conc = (.ok (a.flag 31 != a.flag 28), a.conc) := by
  unfold flagsDiffer
  rw [bind_ok (show getFlag 31 a.conc = _ from getFlag_conc a 31), bind_ok (show getFlag 28 a.conc = _ from getFlag_conc a 28)]
  unfold Arm.flag
  generalize (a.reg 16).getLsbD 31 = f
  generalize (a.reg 16).getLsbD 28 = g
  cases f <;> cases g <;> rfl

/-- A condition, on machines. -/
def Arm.holds (s : Arm) (cond : Nat) : Bool := condPassed (s.flag 31) (s.flag 30) (s.flag 29) (s.flag 28) cond

theorem flag_one (a : Arm) (k : Nat) : flagIs k 1 a.conc = (.ok (a.flag k), a.conc) := by
  have := flagIs_conc a k true
  simpa using this

theorem flag_zero (a : Arm) (k : Nat) : flagIs k 0 a.conc = (.ok (!a.flag k), a.conc) := by
  have := flagIs_conc a k false
  simpa using this

theorem condHolds_conc (a : Arm) (k : Nat) : condHolds k a.conc = (.ok (a.holds k), a.conc) := by
  unfold condHolds Arm.holds condPassed
  split
  · exact flag_one a 30
  · exact flag_zero a 30
  · exact flag_one a 29
  · exact flag_zero a 29
  · exact flag_one a 31
  · exact flag_zero a 31
  · exact flag_one a 28
  · exact flag_zero a 28
  · rw [bind_ok (show flagIs 29 1 a.conc = _ from flag_one a 29)]
    cases a.flag 29
    · rfl
    · exact flag_zero a 30
  · rw [bind_ok (show flagIs 29 0 a.conc = _ from flag_zero a 29)]
    cases a.flag 29
    · rfl
    · exact flag_one a 30
  · exact flagsEqual_conc a
  · exact flagsDiffer_conc a
  · rw [bind_ok (show flagIs 30 0 a.conc = _ from flag_zero a 30)]
    cases a.flag 30
    · exact flagsEqual_conc a
    · rfl
  · rw [bind_ok (show flagIs 30 1 a.conc = _ from flag_one a 30)]
    cases a.flag 30
    · exact flagsDiffer_conc a
    · rfl
  · split <;> first | rfl | (next h0 h1 h2 h3 h4 h5 h6 h7 h8 h9 h10 h11 h12 h13 => simp_all)

theorem branch_exact {i : Instr} {cond : Nat} {offset : Word} (h : (Act.branch cond offset).Of i) (a : Arm) :
    i.eval a.conc = (.ok i, (if a.holds cond then a.set 15 (a.reg 15 + 4#32 + offset) else a.next i.size).conc) := by
  obtain ⟨hk, hc, hl, hdelta, hm, hi⟩ := h
  unfold Instr.eval
  rw [hk]
  show Exec.branch i a.conc = _
  unfold Exec.branch
  rw [py_attr hc, bind_ok (condHolds_conc a cond)]
  cases a.holds cond
  · simp only [Bool.false_eq_true, if_false]
    rw [bind_ok (advance_conc _ _)]; rfl
  · simp only [if_true]
    rw [bind_ok (pcForInstr_conc a), py_attr hdelta, py_bind_ok (add_int_ofBV _ _), py_attr hl]
    have h1 : linkIf false (ofBV (a.reg 15 + 4#32 + BitVec.ofInt 32 0)) a.conc = (.ok (), a.conc) := rfl
    have h2 : jump i (ofBV (a.reg 15 + 4#32 + BitVec.ofInt 32 0)) a.conc =
        (.ok (), (a.set 15 (a.reg 15 + 4#32 + offset)).conc) := by
      unfold jump
      rw [hm]
      simp only
      rw [py_attr hi, py_bind_ok (add_ofBV _ _), setPc_conc]
      simp
    rw [bind_ok h1, bind_ok h2]
    rfl

theorem linkIf_conc (a : Arm) (next : Word) :
    linkIf true (ofBV next) a.conc = (.ok (), (a.set 14 (next ||| 1#32)).conc) := by
  unfold linkIf
  simp only [if_true]
  have : (ofBV next).or (.int 1) = .ok (ofBV (next ||| 1#32)) := or_ofBV next 1#32
  rw [py_bind_ok this, setLr_conc]

theorem jump_reg {i : Instr} {m : Nat} (h : IsReg i.m m) (next : BS) (a : Arm) :
    jump i next a.conc = (.ok (), (a.set 15 (a.reg m &&& ~~~1#32)).conc) := by
  unfold jump
  rw [h.1]
  simp only
  rw [bind_ok (getR_conc a m h.2)]
  have : (ofBV (a.reg m)).copy.setItem 0 (.int 0) = .ok (ofBV (a.reg m &&& ~~~1#32)) := by
    rw [copy_wf (ofBV_wf _)]
    exact setItem_ofBV _ 0 (by decide) false
  rw [py_bind_ok this, setPc_conc]

theorem bl_exact {i : Instr} {offset : Word} (h : (Act.bl offset).Of i) (a : Arm) :
    i.eval a.conc = (.ok i, ((a.set 14 ((a.reg 15 + 4#32) ||| 1#32)).set 15 (a.reg 15 + 4#32 + offset)).conc) := by
  obtain ⟨hk, hc, hl, hdelta, hm, hi⟩ := h
  unfold Instr.eval
  rw [hk]
  show Exec.branch i a.conc = _
  unfold Exec.branch
  rw [py_attr hc, bind_ok (condHolds_conc a 15)]
  simp only [show a.holds 15 = true from rfl, if_true]
  rw [bind_ok (pcForInstr_conc a), py_attr hdelta, py_bind_ok (add_int_ofBV _ _), py_attr hl, bind_ok (linkIf_conc _ _)]
  have h2 : ∀ b : Arm, jump i (ofBV (a.reg 15 + 4#32 + BitVec.ofInt 32 0)) b.conc =
      (.ok (), (b.set 15 (a.reg 15 + 4#32 + offset)).conc) := by
    intro b
    unfold jump
    rw [hm]
    simp only
    rw [py_attr hi, py_bind_ok (add_ofBV _ _), setPc_conc]
    simp
  rw [bind_ok (h2 _)]
  simp

theorem blx_exact {i : Instr} {m : Nat} (h : (Act.blx m).Of i) (a : Arm) :
    i.eval a.conc = (.ok i, ((a.set 14 ((a.reg 15 + 4#32 - 2#32) ||| 1#32)).set 15
      ((a.set 14 ((a.reg 15 + 4#32 - 2#32) ||| 1#32)).reg m &&& ~~~1#32)).conc) := by
  obtain ⟨hk, hc, hl, hdelta, hm⟩ := h
  unfold Instr.eval
  rw [hk]
  show Exec.branch i a.conc = _
  unfold Exec.branch
  rw [py_attr hc, bind_ok (condHolds_conc a 15)]
  simp only [show a.holds 15 = true from rfl, if_true]
  rw [bind_ok (pcForInstr_conc a), py_attr hdelta, py_bind_ok (add_int_ofBV _ _), py_attr hl, bind_ok (linkIf_conc _ _),
    bind_ok (jump_reg hm _ _)]
  have : a.reg 15 + 4#32 + BitVec.ofInt 32 (-2) = a.reg 15 + 4#32 - 2#32 := by
    rw [BitVec.sub_eq_add_neg]; rfl
  rw [this]
  rfl

theorem bx_exact {i : Instr} {m : Nat} (h : (Act.bx m).Of i) (a : Arm) :
    i.eval a.conc = (.ok i, (a.set 15 (a.reg m &&& ~~~1#32)).conc) := by
  obtain ⟨hk, hc, hl, hdelta, hm⟩ := h
  unfold Instr.eval
  rw [hk]
  show Exec.branch i a.conc = _
  unfold Exec.branch
  rw [py_attr hc, bind_ok (condHolds_conc a 15)]
  simp only [show a.holds 15 = true from rfl, if_true]
  rw [bind_ok (pcForInstr_conc a), py_attr hdelta, py_bind_ok (add_int_ofBV _ _), py_attr hl]
  rw [bind_ok (show linkIf false _ a.conc = (.ok (), a.conc) from rfl), bind_ok (jump_reg hm _ _)]
  rfl

end Verif
