import Verif.Arm
import Verif.Props.C16to20
import Verif.Props.C21to23

/-!
# Lemmas about machines
-/

namespace Verif
open BS

namespace CpuM

theorem bind_def {α β : Type} (x : CpuM α) (f : α → CpuM β) (s : Machine) :
    (x >>= f) s = match x s with
      | (.ok a, s') => f a s'
      | (.error e, s') => (.error e, s') := rfl

theorem bind_ok {α β : Type} {x : CpuM α} {f : α → CpuM β} {s s' : Machine} {a : α}
    (h : x s = (.ok a, s')) : (x >>= f) s = f a s' := by rw [bind_def, h]

theorem bind_err {α β : Type} {x : CpuM α} {f : α → CpuM β} {s s' : Machine} {e : PyErr}
    (h : x s = (.error e, s')) : (x >>= f) s = (.error e, s') := by rw [bind_def, h]

@[simp] theorem pure_run {α : Type} (a : α) (s : Machine) : (pure a : CpuM α) s = (.ok a, s) := rfl

theorem py_ok {α : Type} {x : PyRes α} {a : α} (h : x = .ok a) (s : Machine) : py x s = (.ok a, s) := by
  rw [h]; rfl

theorem py_bind_ok {α β : Type} {x : PyRes α} {a : α} (h : x = .ok a) (f : α → CpuM β) (s : Machine) :
    (py x >>= f) s = f a s := bind_ok (py_ok h s)

theorem py_bind_err {α β : Type} {x : PyRes α} {e : PyErr} (h : x = .error e) (f : α → CpuM β) (s : Machine) :
    (py x >>= f) s = (.error e, s) := by rw [bind_def, h]; rfl

end CpuM

open CpuM

theorem Machine.ext {s t : Machine} (h1 : ∀ k, s.regs k = t.regs k) (h2 : s.mem = t.mem) : s = t := by
  cases s; cases t
  simp only at h1 h2
  subst h2
  congr 1
  exact funext h1

theorem mem_core {i : Int} : i ∈ coreIndices ↔
    (-4 ≤ i ∧ i ≤ 18) ∨ i = 33 ∨ (0x40 ≤ i ∧ i ≤ 0x5f) := by
  constructor
  · intro h
    simp only [coreIndices, List.mem_append, List.mem_map, List.mem_range, List.mem_cons,
      List.not_mem_nil, or_false] at h
    rcases h with ((h | ⟨k, h, rfl⟩) | h) | ⟨k, h, rfl⟩
    · omega
    · simp only [Int.ofNat_eq_natCast]; omega
    · omega
    · omega
  · intro h
    simp only [coreIndices, List.mem_append, List.mem_map, List.mem_range, List.mem_cons,
      List.not_mem_nil, or_false]
    rcases h with h | h | h
    · by_cases h0 : i < 0
      · left; left; left; omega
      · left; left; right
        exact ⟨i.toNat, by omega, by simp only [Int.ofNat_eq_natCast]; omega⟩
    · left; right; exact h
    · right; exact ⟨(i - 0x40).toNat, by omega, by omega⟩

theorem conc_regs (a : Arm) {i : Int} (h : i ∈ coreIndices) : a.conc.regs (some i) = some ((a.reg i).toNat : Int) := by
  simp only [Arm.conc]; rw [if_pos h]

@[simp] theorem conc_mem (a : Arm) : a.conc.mem = a.mem := rfl

/-- A machine whose registers hold words is the machine of some `Arm`. -/
theorem exists_conc (s : Machine) (h : ∀ i ∈ coreIndices, ∃ v, s.regs (some i) = some v ∧ 0 ≤ v ∧ v < 2 ^ 32) :
    ∃ a : Arm, s = a.conc := by
  refine ⟨⟨fun i => BitVec.ofInt 32 ((s.regs (some i)).getD 0), s.regs, s.mem⟩, ?_⟩
  apply Machine.ext
  · intro k
    cases k with
    | none => rfl
    | some i =>
      simp only [Arm.conc]
      by_cases hi : i ∈ coreIndices
      · rw [if_pos hi]
        obtain ⟨v, h1, h2, h3⟩ := h i hi
        rw [h1, Option.getD_some, BitVec.toNat_ofInt]
        have : v % ((2 ^ 32 : Nat) : Int) = v := Int.emod_eq_of_lt h2 (by omega)
        rw [this]
        congr 1; omega
      · rw [if_neg hi]
  · rfl

theorem init_word (v : Word) : init (.int (v.toNat : Int)) = .ok (ofBV v) := by
  have hlt := v.isLt
  have h1 : ¬ ((v.toNat : Int) > 2 ^ 32) := by omega
  have h2 : initRaw (.int (v.toNat : Int)) = .ok (32, (v.toNat : Int)) := by
    show Except.ok (if (v.toNat : Int) > 2 ^ 32 then 64 else 32, (v.toNat : Int)) = _
    rw [if_neg h1]
  unfold init
  rw [h2]
  show Except.ok (ofInt (v.toNat : Int) 32) = _
  rw [ofInt_nat, ofBV_eq_bv]

theorem readRegister_conc (a : Arm) {r : RegArg} {i : Int} (hr : registerIndex r = some i) (h : i ∈ coreIndices) :
    readRegister r a.conc = (.ok (ofBV (a.reg i)), a.conc) := by
  unfold readRegister
  have : delegateReadRegister (registerIndex r) a.conc = (.ok ((a.reg i).toNat : Int), a.conc) := by
    unfold delegateReadRegister
    rw [hr, conc_regs a h]
  rw [bind_ok this, init_word]; rfl

theorem pyAnd_nat (m n : Nat) : pyAnd (m : Int) (n : Int) = ((m &&& n : Nat) : Int) := rfl

theorem maskReg_word (i : Int) (v : Word) : maskReg (some i) (v.toNat : Int) = ((keepBits i v).toNat : Int) := by
  unfold maskReg keepBits
  simp only [Option.some.injEq]
  have h3 : pyAnd (v.toNat : Int) (pyNot 3) = ((v &&& 0xfffffffc#32).toNat : Int) := by
    have := C20.and_not_low (v.toNat : Int) 2
    rw [show (2 : Int) ^ 2 - 1 = 3 from rfl, show (2 : Int) ^ 2 = 4 from rfl] at this
    rw [this]
    have e : (v &&& 0xfffffffc#32).toNat = v.toNat / 4 * 4 := by
      rw [BitVec.toNat_and]
      apply Nat.eq_of_testBit_eq
      intro k
      have hv := v.isLt
      rw [Nat.testBit_and, show v.toNat / 4 * 4 = 2 ^ 2 * (v.toNat / 2 ^ 2) by omega, Nat.testBit_two_pow_mul,
        Nat.testBit_div_two_pow]
      have h4 : (0xfffffffc#32).toNat = 2 ^ 2 * (2 ^ 30 - 1) := by decide
      rw [h4, Nat.testBit_two_pow_mul, Nat.testBit_two_pow_sub_one]
      by_cases h2 : 2 ≤ k
      · by_cases h30 : k - 2 < 30
        · simp [h2, h30]
        · have : v.toNat.testBit k = false := Nat.testBit_lt_two_pow
            (Nat.lt_of_lt_of_le hv (Nat.pow_le_pow_right (by decide) (by omega)))
          simp [h2, h30, this]
      · simp [h2]
    rw [e]; omega
  split
  · rw [BitVec.toNat_and]; rfl
  · split
    · rw [BitVec.toNat_and]; rfl
    · split
      · exact h3
      · rfl

theorem spsel_eq : spsel = 0 := by decide

theorem conc_setKey (a : Arm) {i : Int} (h : i ∈ coreIndices) (v : Word) :
    setKey (some i) (v.toNat : Int) a.conc
      = Arm.conc { a with reg := fun j => if j = i then v else a.reg j } := by
  apply Machine.ext
  · intro k
    simp only [setKey]
    cases k with
    | none => rw [if_neg (by simp)]; rfl
    | some j =>
      by_cases hj : j = i
      · subst hj
        rw [if_pos rfl]
        simp only [Arm.conc]; rw [if_pos h, if_pos trivial]
      · rw [if_neg (by simp [hj])]
        simp only [Arm.conc]; rw [if_neg hj]
  · rfl

theorem writeRegister_conc (a : Arm) {r : RegArg} {i : Int} (hr : registerIndex r = some i)
    (h : i ∈ coreIndices) (v : Word) :
    writeRegister r (.bs (ofBV v)) a.conc = (.ok (), (a.set i v).conc) := by
  unfold writeRegister delegateWriteRegister
  rw [hr]
  simp only [Num.toInt, unsigned, ofBV_value, spsel_eq, maskReg_word, Option.some.injEq, ne_eq, not_true_eq_false,
    if_false, and_true, conc_setKey a h]
  have h13 : (13 : Int) ∈ coreIndices := mem_core.2 (by omega)
  have h17 : (17 : Int) ∈ coreIndices := mem_core.2 (by omega)
  by_cases e13 : i = 13
  · subst e13
    rw [if_pos rfl, conc_setKey _ h17]
    congr 2
    unfold Arm.set
    congr 1
    funext j
    by_cases j17 : j = 17 <;> by_cases j13 : j = 13 <;> simp [j17, j13]
  · rw [if_neg e13]
    by_cases e17 : i = 17
    · subst e17
      rw [if_pos (by simp), conc_setKey _ h13]
      congr 2
      unfold Arm.set
      congr 1
      funext j
      by_cases j17 : j = 17 <;> by_cases j13 : j = 13 <;> simp [j17, j13]
    · rw [if_neg (by simp [e17])]
      congr 2
      unfold Arm.set
      congr 1
      funext j
      simp [e13, e17]

theorem writeRegister_int (a : Arm) {r : RegArg} {i : Int} (hr : registerIndex r = some i)
    (h : i ∈ coreIndices) (v : Word) :
    writeRegister r (.int (v.toNat : Int)) a.conc = (.ok (), (a.set i v).conc) :=
  writeRegister_conc a hr h v

theorem idx_pc : registerIndex (.name (c! "pc")) = some 15 := by decide
theorem idx_sp : registerIndex (.name (c! "sp")) = some 13 := by decide
theorem idx_lr : registerIndex (.name (c! "lr")) = some 14 := by decide
theorem idx_msp : registerIndex (.name (c! "msp")) = some 17 := by decide
theorem idx_psp : registerIndex (.name (c! "psp")) = some 18 := by decide
theorem idx_xpsr : registerIndex (.name (c! "xpsr")) = some 16 := by decide
theorem idx_control : registerIndex (.name (c! "control")) = some (-4) := by decide

theorem getPc_conc (a : Arm) : getPc a.conc = (.ok (ofBV (a.reg 15)), a.conc) :=
  readRegister_conc a idx_pc (mem_core.2 (by omega))
theorem setPc_conc (a : Arm) (v : Word) : setPc (.bs (ofBV v)) a.conc = (.ok (), (a.set 15 v).conc) :=
  writeRegister_conc a idx_pc (mem_core.2 (by omega)) v
theorem setLr_conc (a : Arm) (v : Word) : setLr (.bs (ofBV v)) a.conc = (.ok (), (a.set 14 v).conc) :=
  writeRegister_conc a idx_lr (mem_core.2 (by omega)) v
theorem getSp_conc (a : Arm) : getSp a.conc = (.ok (ofBV (a.reg 13)), a.conc) :=
  readRegister_conc a idx_sp (mem_core.2 (by omega))
theorem setSp_conc (a : Arm) (v : Word) : setSp (.bs (ofBV v)) a.conc = (.ok (), (a.set 13 v).conc) :=
  writeRegister_conc a idx_sp (mem_core.2 (by omega)) v
theorem getXpsr_conc (a : Arm) : getXpsr a.conc = (.ok (ofBV (a.reg 16)), a.conc) :=
  readRegister_conc a idx_xpsr (mem_core.2 (by omega))
theorem setXpsr_conc (a : Arm) (v : Word) : setXpsr (.bs (ofBV v)) a.conc = (.ok (), (a.set 16 v).conc) :=
  writeRegister_conc a idx_xpsr (mem_core.2 (by omega)) v
theorem getMsp_conc (a : Arm) : getMsp a.conc = (.ok (ofBV (a.reg 17)), a.conc) :=
  readRegister_conc a idx_msp (mem_core.2 (by omega))
theorem getPsp_conc (a : Arm) : getPsp a.conc = (.ok (ofBV (a.reg 18)), a.conc) :=
  readRegister_conc a idx_psp (mem_core.2 (by omega))
theorem getControl_conc (a : Arm) : getControl a.conc = (.ok (ofBV (a.reg (-4))), a.conc) :=
  readRegister_conc a idx_control (mem_core.2 (by omega))

theorem pcForInstr_conc (a : Arm) : pcForInstr a.conc = (.ok (ofBV (a.reg 15 + 4#32)), a.conc) := by
  unfold pcForInstr
  rw [bind_ok (readRegister_conc a idx_pc (mem_core.2 (by omega))), add_int_ofBV]; rfl

theorem getR_conc (a : Arm) (k : Nat) (h : k < 16) : getR k a.conc = (.ok (ofBV (a.reg k)), a.conc) := by
  unfold getR getIndexed
  simp only [Int.zero_add]
  rw [if_neg (by omega)]
  exact readRegister_conc a rfl (mem_core.2 (by omega))

theorem setR_conc (a : Arm) (k : Nat) (h : k < 16) (v : Word) :
    setR k (.bs (ofBV v)) a.conc = (.ok (), (a.set k v).conc) := by
  unfold setR setIndexed
  simp only [Int.zero_add]
  rw [if_neg (by omega)]
  exact writeRegister_conc a rfl (mem_core.2 (by omega)) v

theorem getLsbD_withBit (x : Word) (i : Nat) (hi : i < 32) (b : Bool) (k : Nat) :
    (withBit x i b).getLsbD k = if k = i then b else x.getLsbD k := by
  unfold withBit
  by_cases hk : k < 32
  · have h1 : (1#32 <<< i).getLsbD k = decide (k = i) := by
      rw [BitVec.getLsbD_shiftLeft]
      have h1 : (1#32).getLsbD (k - i) = decide (k - i = 0) := by
        rw [BitVec.getLsbD_one]; simp
      rw [h1]
      by_cases hki : k = i
      · simp [hki, hi]
      · by_cases hlt : k < i
        · simp [hlt, hki]
        · simp [hk, hlt, hki, show ¬ k - i = 0 by omega]
    cases b
    · simp only [Bool.false_eq_true, if_false, BitVec.getLsbD_and, BitVec.getLsbD_not, h1, hk]
      by_cases hki : k = i <;> simp [hki]
    · simp only [if_true, BitVec.getLsbD_or, h1]
      by_cases hki : k = i <;> simp [hki]
  · have : ∀ y : Word, y.getLsbD k = false := fun y => BitVec.getLsbD_of_ge y k (by omega)
    rw [this, this, if_neg (by omega)]

theorem setItem_ofBV (x : Word) (i : Nat) (hi : i < 32) (b : Bool) :
    (ofBV x).setItem (i : Int) (.bs (ofBit b)) = .ok (ofBV (withBit x i b)) := by
  unfold setItem setItemArg
  simp only [ofBV_width, ofBit_width, ofBit_value, ne_eq, not_true_eq_false, if_false, okBind]
  rw [if_neg (by omega), if_neg (by omega), if_neg (by omega), Int.toNat_natCast]
  congr 1
  have hb : (pyAnd (b.toNat : Int) 1).toNat = b.toNat := by cases b <;> rfl
  rw [hb]
  simp only [ofBV, BS.mk.injEq, true_and, and_true]
  apply Nat.eq_of_testBit_eq
  intro k
  rw [BitVec.testBit_toNat, getLsbD_withBit x i hi, Nat.testBit_or, Nat.testBit_and, testBit_natAndNot,
    Nat.testBit_two_pow_sub_one, Nat.one_shiftLeft, Nat.testBit_two_pow, BitVec.testBit_toNat, Nat.testBit_shiftLeft]
  by_cases hki : k = i
  · subst hki; cases b <;> simp
  · have : x.getLsbD k = true → k < 32 := fun h => by
      by_cases hk : k < 32
      · exact hk
      · rw [BitVec.getLsbD_of_ge x k (by omega)] at h; simp at h
    have hb0 : b.toNat.testBit (k - i) = false ∨ k < i := by
      by_cases hlt : k < i
      · exact .inr hlt
      · left; cases b
        · simp
        · rw [show true.toNat = 2 ^ 0 from rfl, Nat.testBit_two_pow]; simp; omega
    have hb1 : (decide (i ≤ k) && b.toNat.testBit (k - i)) = false := by
      rcases hb0 with h | h
      · simp [h]
      · simp [show ¬ i ≤ k by omega]
    rw [hb1]
    cases hx : x.getLsbD k
    · simp [hki]
    · simp [hki, this hx, show ¬ i = k by omega]

theorem init_bit (b : Bool) : init (.bs (ofBit b)) (some 1) = .ok (ofBit b) := by cases b <;> rfl

theorem getFlag_conc (a : Arm) (i : Nat) :
    getFlag i a.conc = (.ok (ofBit ((a.reg 16).getLsbD i)), a.conc) := by
  unfold getFlag
  rw [bind_ok (getXpsr_conc a), getItem_ofBV]; rfl

theorem setFlag_conc (a : Arm) (i : Nat) (hi : i < 32) (b : Bool) :
    setFlag i (.bs (ofBit b)) a.conc = (.ok (), (a.set 16 (withBit (a.reg 16) i b)).conc) := by
  unfold setFlag
  rw [bind_ok (getXpsr_conc a), py_bind_ok (init_bit b), py_bind_ok (setItem_ofBV _ _ hi _), setXpsr_conc]

end Verif
