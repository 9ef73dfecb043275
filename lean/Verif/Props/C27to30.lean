import Verif.Lemmas.Machine

/-!
# C27 to C30: registers
-/

namespace Verif
open BS CpuM

/-- What a register keeps of a written integer, by arithmetic: PRIMASK (-1) and FAULTMASK
(-3) the value modulo 2, BASEPRI (-2) modulo 256, the stack pointers (13, 17, 18) the
value rounded down to a multiple of 4, all others everything. -/
def kept (k : Int) (v : Int) : Int :=
  if k = -3 ∨ k = -1 then v % 2
  else if k = -2 then v % 256
  else if k = 13 ∨ k = 17 ∨ k = 18 then v - v % 4
  else v

theorem pyAnd_mask_int (v : Int) (w : Nat) : pyAnd v ((2 ^ w - 1 : Nat) : Int) = v % 2 ^ w := by
  have h0 : 0 ≤ pyAnd v ((2 ^ w - 1 : Nat) : Int) := by
    cases v <;> exact Int.natCast_nonneg _
  have h1 := pyAnd_mask v w
  rw [maskTo_eq] at h1
  have h2 : 0 ≤ v % 2 ^ w := Int.emod_nonneg _ (Int.ne_of_gt (Int.pow_pos (by decide)))
  omega

theorem maskReg_eq (k v : Int) : maskReg (some k) v = kept k v := by
  unfold maskReg kept
  simp only [Option.some.injEq]
  have h1 : pyAnd v 1 = v % 2 := by
    have := pyAnd_mask_int v 1; simpa using this
  have h2 : pyAnd v 0xff = v % 256 := by
    have := pyAnd_mask_int v 8; simpa using this
  have h3 : pyAnd v (pyNot 3) = v - v % 4 := by
    have := C20.and_not_low v 2
    rw [show (2 : Int) ^ 2 - 1 = 3 from rfl, show (2 : Int) ^ 2 = 4 from rfl] at this
    rw [this]; omega
  rw [h1, h2, h3]

namespace C28

/-- **C28.** Writing a register by name or index stores the kept part of the value there,
and in the alias (SP 13 and MSP 17 are aliases of each other); no other register and no
memory changes. -/
theorem write_spec (s : Machine) {r : RegArg} {k : Int} (hr : registerIndex r = some k) (value : Num) :
    ∃ s', writeRegister r value s = (.ok (), s') ∧ s'.mem = s.mem ∧
      s'.regs (some k) = some (kept k value.toInt) ∧
      (k = 13 → s'.regs (some 17) = some (kept k value.toInt)) ∧
      (k = 17 → s'.regs (some 13) = some (kept k value.toInt)) ∧
      ∀ j, j ≠ some k → ¬ (k = 13 ∧ j = some 17) → ¬ (k = 17 ∧ j = some 13) → s'.regs j = s.regs j := by
  unfold writeRegister delegateWriteRegister
  rw [hr]
  simp only [spsel_eq, maskReg_eq, Option.some.injEq, ne_eq, not_true_eq_false, if_false, and_true]
  by_cases e13 : k = 13
  · subst e13
    rw [if_pos rfl]
    refine ⟨_, rfl, rfl, by simp [setKey], fun _ => by simp [setKey], fun h => by omega, ?_⟩
    intro j h1 h2 _
    simp only [setKey]
    rw [if_neg (by intro h; exact h2 ⟨rfl, h⟩), if_neg h1]
  · rw [if_neg e13]
    by_cases e17 : k = 17
    · subst e17
      rw [if_pos (by simp)]
      refine ⟨_, rfl, rfl, by simp [setKey], fun h => by omega, fun _ => by simp [setKey], ?_⟩
      intro j h1 _ h2
      simp only [setKey]
      rw [if_neg (by intro h; exact h2 ⟨rfl, h⟩), if_neg h1]
    · rw [if_neg (by simp [e17])]
      refine ⟨_, rfl, rfl, by simp [setKey], fun h => by omega, fun h => by omega, ?_⟩
      intro j h1 _ _
      simp only [setKey]; rw [if_neg h1]

/-- **C28.** Reading a register changes nothing, whether it succeeds or not. -/
theorem read_no_effect (s : Machine) (r : RegArg) : (readRegister r s).2 = s := by
  unfold readRegister
  rw [bind_def]
  unfold delegateReadRegister
  cases h : s.regs (registerIndex r) with
  | none => rfl
  | some v => rfl

/-- **C28.** For word values: reading back gives the kept bits. -/
theorem read_after_write (a : Arm) {r q : RegArg} {k : Int} (hr : registerIndex r = some k)
    (hq : registerIndex q = some k) (hk : k ∈ coreIndices) (v : Word) :
    (readRegister q (writeRegister r (.bs (ofBV v)) a.conc).2).1 = .ok (ofBV (keepBits k v)) := by
  rw [writeRegister_conc a hr hk, readRegister_conc _ hq hk]
  simp [Arm.set]

/-- **C28.** For word values: all other registers read as before. -/
theorem read_other (a : Arm) {r q : RegArg} {k j : Int} (hr : registerIndex r = some k)
    (hq : registerIndex q = some j) (hk : k ∈ coreIndices) (hj : j ∈ coreIndices) (v : Word)
    (h1 : j ≠ k) (h2 : ¬ (k = 13 ∧ j = 17)) (h3 : ¬ (k = 17 ∧ j = 13)) :
    (readRegister q (writeRegister r (.bs (ofBV v)) a.conc).2).1 = (readRegister q a.conc).1 := by
  rw [writeRegister_conc a hr hk, readRegister_conc _ hq hj, readRegister_conc _ hq hj]
  simp only [Arm.set]
  rw [if_neg (by simp [h1, h2, h3])]

/-- **C28.** Writing a name that is not a register leaves all registers and memory alone. -/
theorem write_unknown (s : Machine) {r : RegArg} (hr : registerIndex r = none) (value : Num) :
    (writeRegister r value s).1 = .ok () ∧ (writeRegister r value s).2.mem = s.mem ∧
      ∀ j, (writeRegister r value s).2.regs (some j) = s.regs (some j) := by
  unfold writeRegister delegateWriteRegister
  rw [hr]
  simp [setKey]

/-- **C28.** Reading what is not in the register file raises KeyError and changes nothing;
in a new machine this is every name and number that is no register. -/
theorem read_unknown (s : Machine) (r : RegArg) :
    (s.regs (registerIndex r) = none → readRegister r s = (.error .keyError, s)) ∧
    ((∀ k ∈ coreIndices, registerIndex r ≠ some k) → readRegister r Machine.new = (.error .keyError, Machine.new)) := by
  have key : ∀ s : Machine, s.regs (registerIndex r) = none → readRegister r s = (.error .keyError, s) := by
    intro s h
    have : delegateReadRegister (registerIndex r) s = (.error .keyError, s) := by
      unfold delegateReadRegister
      rw [h]
    exact bind_err this
  refine ⟨key s, fun h => key _ ?_⟩
  unfold Machine.new
  cases hr : registerIndex r with
  | none => rfl
  | some k =>
    have hk : k ∉ coreIndices := fun hm => h k hm hr
    have h16 : k ≠ 16 := fun he => hk (he ▸ (by decide))
    simp only
    rw [if_neg h16, if_neg hk]

example : (readRegister (.name (c! "r16")) Machine.new).1 = .error .keyError ∧ (readRegister (.idx 19) Machine.new).1 = .error .keyError ∧
    (readRegister (.name (c! "XPSR")) Machine.new).1 = .ok (bv 32 0x01000000) := by decide +kernel

/-- **C28.** Names are found whatever the case of their letters. -/
theorem case_insensitive (n n' : Str) (h : lower n = lower n') : registerIndex (.name n) = registerIndex (.name n') := by
  show Option.map _ (List.find? _ _) = Option.map _ (List.find? _ _)
  rw [h]

/-- **C28.** The names are what the architecture calls the registers: `r0` to `r15`,
`sp`, `lr` and `pc` for the last three, the special registers and `s0` to `s31`. -/
theorem names : (∀ k < 16, registerIndex (.name ('r' :: (Nat.toDigits 10 k))) = some (k : Int)) ∧
    (∀ k < 32, registerIndex (.name ('s' :: (Nat.toDigits 10 k))) = some ((64 + k : Nat) : Int)) ∧
    registerIndex (.name (c! "sp")) = some 13 ∧ registerIndex (.name (c! "LR")) = some 14 ∧
    registerIndex (.name (c! "Pc")) = some 15 ∧ registerIndex (.name (c! "xpsr")) = some 16 ∧
    registerIndex (.name (c! "msp")) = some 17 ∧ registerIndex (.name (c! "psp")) = some 18 := by
  decide +kernel

/-- **C28.** The name of an index leads back to the index. -/
theorem name_roundtrip : ∀ k ∈ coreIndices, ∃ n, coreRegisterName k = .ok n ∧ registerIndex (.name n) = some k := by
  have h : ∀ k ∈ coreIndices, (match coreRegisterName k with
    | .ok n => decide (registerIndex (.name n) = some k)
    | .error _ => false) = true := by decide +kernel
  intro k hk
  have := h k hk
  revert this
  cases coreRegisterName k with
  | error e => intro h; simp at h
  | ok n => exact fun h => ⟨n, rfl, of_decide_eq_true h⟩

example : kept 13 (-5) = -8 ∧ kept 7 (-5) = -5 ∧ kept (-2) 0x1ff = 0xff ∧
    ((writeRegister (.name (c! "SP")) (.int 0x20001003) Machine.new).2.regs (some 17)) = some 0x20001000 := by decide

end C28

namespace C27

/-- Running a history of register writes. -/
def run : List (RegArg × Num) → CpuM Unit
  | [] => pure ()
  | w :: t => do
      writeRegister w.1 w.2
      run t

/-- The invariant. -/
def Banked (s : Machine) : Prop :=
  s.regs (some 13) = s.regs (some 17) ∧ ∃ q, s.regs (some 13) = some (4 * q)

theorem banked_write {s : Machine} (h : Banked s) (r : RegArg) (v : Num) : Banked (writeRegister r v s).2 := by
  cases hr : registerIndex r with
  | none =>
    obtain ⟨-, -, h3⟩ := C28.write_unknown s hr v
    unfold Banked
    rw [h3, h3]; exact h
  | some k =>
    obtain ⟨s', e, -, h1, h2, h3, h4⟩ := C28.write_spec s hr v
    rw [e]
    show Banked s'
    by_cases k13 : k = 13
    · subst k13
      refine ⟨by rw [h1, h2 rfl], v.toInt / 4, ?_⟩
      rw [h1]; simp only [kept]; congr 1; simp; omega
    · by_cases k17 : k = 17
      · subst k17
        refine ⟨by rw [h1, h3 rfl], v.toInt / 4, ?_⟩
        rw [h3 rfl]; simp only [kept]; congr 1; simp; omega
      · have e13 := h4 (some 13) (by simp; omega) (by simp [k13]) (by simp [k17])
        have e17 := h4 (some 17) (by simp; omega) (by simp [k13]) (by simp [k17])
        unfold Banked
        rw [e13, e17]; exact h

theorem run_ok (ws : List (RegArg × Num)) (s : Machine) : (run ws s).1 = .ok () ∧ (Banked s → Banked (run ws s).2) := by
  induction ws generalizing s with
  | nil => exact ⟨rfl, id⟩
  | cons w t ih =>
    have hw : writeRegister w.1 w.2 s = (.ok (), (writeRegister w.1 w.2 s).2) := by
      cases hr : registerIndex w.1 with
      | none => rw [← (C28.write_unknown s hr w.2).1]
      | some k => obtain ⟨s', e, -⟩ := C28.write_spec s hr w.2; rw [e]
    have e : run (w :: t) s = run t (writeRegister w.1 w.2 s).2 := by
      show (writeRegister w.1 w.2 >>= fun _ => run t) s = _
      rw [bind_ok hw]
    rw [e]
    exact ⟨(ih _).1, fun h => (ih _).2 (banked_write h _ _)⟩

/-- **C27.** After any history of register writes to a new machine, by name or by index
and with any values, SP reads the same as MSP and is a multiple of 4. Missing from the
full claim: SP should read as PSP when CONTROL.SPSEL is set, which is false
(`spsel_ignored`). -/
theorem sp_is_msp_partial (ws : List (RegArg × Num)) :
    ∃ q, (run ws Machine.new).2.regs (some 13) = some (4 * q) ∧ (run ws Machine.new).2.regs (some 17) = some (4 * q) := by
  have h0 : Banked Machine.new := ⟨by decide, 0, by decide⟩
  obtain ⟨h1, q, h2⟩ := (run_ok ws Machine.new).2 h0
  exact ⟨q, h2, by rw [← h1]; exact h2⟩

/-- **C27.** The process stack pointer is always a multiple of 4 as well. -/
theorem psp_aligned (ws : List (RegArg × Num)) : ∃ q, (run ws Machine.new).2.regs (some 18) = some (4 * q) := by
  have key : ∀ (ws : List (RegArg × Num)) (s : Machine), (∃ q, s.regs (some 18) = some (4 * q)) →
      ∃ q, (run ws s).2.regs (some 18) = some (4 * q) := by
    intro ws
    induction ws with
    | nil => exact fun s h => h
    | cons w t ih =>
      intro s h
      cases hr : registerIndex w.1 with
      | none =>
        obtain ⟨h1, -, h3⟩ := C28.write_unknown s hr w.2
        have e : run (w :: t) s = run t (writeRegister w.1 w.2 s).2 := by
          show (writeRegister w.1 w.2 >>= fun _ => run t) s = _
          rw [bind_ok (a := ()) (s' := (writeRegister w.1 w.2 s).2) (by rw [← h1])]
        rw [e]
        exact ih _ (by rw [h3]; exact h)
      | some k =>
        obtain ⟨s', e, -, h1, -, -, h4⟩ := C28.write_spec s hr w.2
        have e' : run (w :: t) s = run t s' := by
          show (writeRegister w.1 w.2 >>= fun _ => run t) s = _
          rw [bind_ok e]
        rw [e']
        apply ih
        by_cases k18 : k = 18
        · subst k18
          refine ⟨w.2.toInt / 4, ?_⟩
          rw [h1]; simp only [kept]; congr 1; simp; omega
        · rw [h4 (some 18) (by simp; omega) (by simp) (by simp)]; exact h
  exact key ws _ ⟨0, by decide⟩

/-- **C27.** With CONTROL.SPSEL set, a write to PSP does not show in SP, and a write to SP
goes to MSP: the bank switch is computed from a constant. -/
theorem spsel_ignored :
    let s := (run [(.name (c! "control"), .int 2), (.name (c! "psp"), .int 0x100), (.name (c! "sp"), .int 0x200)]
      Machine.new).2
    s.regs (some (-4)) = some 2 ∧ s.regs (some 13) = some 0x200 ∧ s.regs (some 17) = some 0x200 ∧
      s.regs (some 18) = some 0x100 := by decide

example : (run [(.name (c! "sp"), .int 0x1007), (.idx 18, .int 9), (.name (c! "MSP"), .int (-1))] Machine.new).2.regs
    (some 13) = some (-4) := by decide

end C27

namespace C29

/-- The four flags: N 31, Z 30, C 29, V 28. -/
def IsFlag (i : Nat) : Prop := i = 31 ∨ i = 30 ∨ i = 29 ∨ i = 28

/-- **C29.** Setting a flag succeeds and changes only xPSR (16), and of it only the bit of
the flag. -/
theorem set_flag (a : Arm) (i : Nat) (h : IsFlag i) (b : Bool) :
    ∃ a' : Arm, setFlag i (.bs (ofBit b)) a.conc = (.ok (), a'.conc) ∧ a'.mem = a.mem ∧
      (∀ j, j ≠ 16 → a'.reg j = a.reg j) ∧
      ∀ k, (a'.reg 16).getLsbD k = if k = i then b else (a.reg 16).getLsbD k := by
  have hi : i < 32 := by rcases h with rfl | rfl | rfl | rfl <;> decide
  refine ⟨_, setFlag_conc a i hi b, rfl, ?_, ?_⟩
  · intro j hj
    simp only [Arm.set]; rw [if_neg (by omega)]
  · intro k
    simp only [Arm.set, keepBits]
    rw [if_pos (by simp), if_neg (by omega), if_neg (by omega), if_neg (by omega), getLsbD_withBit _ _ hi]

/-- **C29.** Reading a flag back gives what was set, and the other flags as they were. -/
theorem read_back (a : Arm) (i j : Nat) (h : IsFlag i) (b : Bool) :
    (getFlag j (setFlag i (.bs (ofBit b)) a.conc).2).1
      = if j = i then .ok (ofBit b) else (getFlag j a.conc).1 := by
  obtain ⟨a', e, -, -, hb⟩ := set_flag a i h b
  rw [e, getFlag_conc, getFlag_conc, hb j]
  split <;> rfl

/-- Values a flag setter takes besides bitstrings: integers are reduced modulo 2, the text
`'0'` and `'1'` as in comparisons. -/
theorem init_int_bit (v : Int) : init (.int v) (some 1) = .ok (ofBit (v % 2 = 1)) := by
  rw [show (1 : Int) = ((1 : Nat) : Int) from rfl, init_int_width]
  congr 1
  simp only [ofInt, ofBit, BS.mk.injEq, true_and]
  have : v % 2 = 0 ∨ v % 2 = 1 := by omega
  have h := maskTo_eq v 1
  rw [h]
  rcases this with h' | h' <;> simp [h']

/-- **C29.** Integer values set the flag to their lowest bit. -/
theorem set_flag_int (a : Arm) (i : Nat) (h : IsFlag i) (v : Int) :
    setFlag i (.int v) a.conc = setFlag i (.bs (ofBit (v % 2 = 1))) a.conc := by
  unfold setFlag
  rw [bind_ok (getXpsr_conc a), bind_ok (getXpsr_conc a), py_bind_ok (init_int_bit v), py_bind_ok (init_bit _)]

/-- **C29.** Any history of flag writes: each flag is the one last set. -/
theorem history (ws : List (Nat × Bool)) (hw : ∀ w ∈ ws, IsFlag w.1) (a : Arm) :
    ∃ a' : Arm, (ws.foldl (fun (m : Machine) w => (setFlag w.1 (.bs (ofBit w.2)) m).2) a.conc) = a'.conc ∧
      a'.mem = a.mem ∧ (∀ j, j ≠ 16 → a'.reg j = a.reg j) ∧
      ∀ k, (a'.reg 16).getLsbD k = match ws.reverse.find? (fun w => w.1 = k) with
        | some w => w.2
        | none => (a.reg 16).getLsbD k := by
  induction ws generalizing a with
  | nil => exact ⟨a, rfl, rfl, fun _ _ => rfl, fun _ => rfl⟩
  | cons w t ih =>
    obtain ⟨a1, e1, m1, r1, b1⟩ := set_flag a w.1 (hw w (by simp)) w.2
    obtain ⟨a2, e2, m2, r2, b2⟩ := ih (fun x hx => hw x (by simp [hx])) a1
    refine ⟨a2, ?_, m2.trans m1, fun j hj => (r2 j hj).trans (r1 j hj), ?_⟩
    · rw [List.foldl_cons, e1]; exact e2
    · intro k
      rw [b2, List.reverse_cons, List.find?_append]
      cases hf : t.reverse.find? (fun w => w.1 = k) with
      | some x => rfl
      | none =>
        simp only [List.find?_cons, List.find?_nil]
        rw [b1]
        by_cases hk : w.1 = k
        · simp [hk]
        · have : ¬ k = w.1 := fun h => hk h.symm
          simp [hk, this]

example : IsFlag 29 ∧ (setFlag 29 (.int 3) Machine.new).2.regs (some 16) = some 0x21000000 := by
  exact ⟨by simp [IsFlag], by decide +kernel⟩

end C29

namespace C30

/-- **C30.** For the core registers, `cpu.r[k]` reads what was last written to index `k`
(the kept bits), for every `k` from 0 to 15. Missing from the full claim: the float bank
`cpu.s`, whose reads always fail (`s_read_fails`). -/
theorem r_read_write_partial (a : Arm) (k : Nat) (hk : k < 16) (v : Word) :
    (getR k (setR k (.bs (ofBV v)) a.conc).2).1 = .ok (ofBV (keepBits k v)) := by
  rw [setR_conc a k hk, getR_conc _ k hk]; simp [Arm.set]

/-- **C30.** Other indices read as before. -/
theorem r_other (a : Arm) (k j : Nat) (hk : k < 16) (hj : j < 16) (h : j ≠ k) (v : Word) :
    (getR j (setR k (.bs (ofBV v)) a.conc).2).1 = (getR j a.conc).1 := by
  rw [setR_conc a k hk, getR_conc _ j hj, getR_conc _ j hj]
  simp only [Arm.set]
  rw [if_neg (by omega)]

/-- **C30.** Beyond the last register `cpu.r` raises `KeyError` and changes nothing. -/
theorem r_beyond (s : Machine) (k : Int) (h : 15 < k) (v : Num) :
    getR k s = (.error .keyError, s) ∧ setR k v s = (.error .keyError, s) := by
  unfold getR getIndexed setR setIndexed
  simp only [Int.zero_add]
  rw [if_pos h, if_pos h]; exact ⟨rfl, rfl⟩

/-- **C30.** Writing `cpu.s[k]` sets float register `k`. -/
theorem s_write (a : Arm) (k : Nat) (hk : k < 32) (v : Word) :
    setS k (.bs (ofBV v)) a.conc = (.ok (), (a.set (64 + k) v).conc) := by
  unfold setS setIndexed
  rw [if_neg (by omega)]
  exact writeRegister_conc a rfl (mem_core.2 (by omega)) v

/-- **C30.** Writing beyond the last float register raises `KeyError`. -/
theorem s_beyond (s : Machine) (k : Int) (h : 31 < k) (v : Num) : setS k v s = (.error .keyError, s) := by
  unfold setS setIndexed
  rw [if_pos (by omega)]; rfl

/-- **C30.** Reading any float register fails: the first index is added twice. So the
full claim is false. -/
theorem s_read_fails (s : Machine) (k : Int) (h : 0 ≤ k) : getS k s = (.error .keyError, s) := by
  unfold getS getIndexed
  rw [if_pos (by omega)]; rfl

/-- **C30.** Negative indices are not rejected: `cpu.r[-1]` to `cpu.r[-4]` are the special
registers PRIMASK to CONTROL. -/
theorem r_negative (a : Arm) (k : Int) (h1 : -4 ≤ k) (h2 : k < 0) : getR k a.conc = (.ok (ofBV (a.reg k)), a.conc) := by
  unfold getR getIndexed
  simp only [Int.zero_add]
  rw [if_neg (by omega)]
  exact readRegister_conc a rfl (mem_core.2 (by omega))

example : (getR 3 (setR 3 (.int 0xdeadbeef) Machine.new).2).1 = .ok (bv 32 0xdeadbeef) ∧
    (getS 3 (setS 3 (.int 1) Machine.new).2).1 = .error .keyError := by decide +kernel

end C30
end Verif
