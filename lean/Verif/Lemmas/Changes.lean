import Verif.Lemmas.Words

/-!
# What executing an action leaves alone
-/

namespace Verif
open BS CpuM Thumb Exec

/-- Register `j` is another register than `k`: SP (13) and MSP (17) are the same. -/
def Apart (j k : Int) : Prop := j ≠ k ∧ ¬ (k = 13 ∧ j = 17) ∧ ¬ (k = 17 ∧ j = 13)

theorem set_apart {a : Arm} {j k : Int} (h : Apart j k) (v : Word) : (a.set k v).reg j = a.reg j := by
  unfold Arm.set
  simp only
  rw [if_neg]
  obtain ⟨h1, h2, h3⟩ := h
  rintro (h | h | h)
  · exact h1 h
  · exact h2 h
  · exact h3 h

theorem apart15 {j : Int} (h : j ≠ 15) : Apart j 15 := ⟨h, by omega, by omega⟩
theorem apart16 {j : Int} (h : j ≠ 16) : Apart j 16 := ⟨h, by omega, by omega⟩

theorem next_apart {a : Arm} {j : Int} (h : j ≠ 15) (size : Nat) : (a.next size).reg j = a.reg j := set_apart (apart15 h) _

theorem flags_apart {a : Arm} {j : Int} (h : j ≠ 16) (on : Bool) (r : Word) (c v : Option Bool) :
    (a.flags on r c v).reg j = a.reg j := by
  unfold Arm.flags
  split
  · exact set_apart (apart16 h) _
  · rfl

theorem storeAll_extra : ∀ (ks : List Nat) (x : Word) (a : Arm), (a.storeAll ks x).extra = a.extra
  | [], _, _ => rfl
  | k :: ks, x, a => by
    unfold Arm.storeAll
    rw [storeAll_extra ks]
    rfl

theorem loadAll_apart {j : Int} : ∀ (ks : List Nat) (x : Word) (a : Arm), (∀ k ∈ ks, Apart j k) →
    (a.loadAll ks x).2.reg j = a.reg j
  | [], _, _, _ => rfl
  | k :: ks, x, a, h => by
    unfold Arm.loadAll
    cases peek a.mem x.toNat 4 with
    | ok v =>
      simp only
      rw [loadAll_apart ks _ _ fun k hk => h k (List.mem_cons_of_mem _ hk)]
      exact set_apart (h k List.mem_cons_self) _
    | error e => rfl

theorem loadAll_extra : ∀ (ks : List Nat) (x : Word) (a : Arm), (a.loadAll ks x).2.extra = a.extra
  | [], _, _ => rfl
  | k :: ks, x, a => by
    unfold Arm.loadAll
    cases peek a.mem x.toNat 4 with
    | ok v => exact loadAll_extra ks _ _
    | error e => rfl

theorem loadRegs_apart {j : Int} {a : Arm} {r : BitVec 16} (h : ∀ k ∈ low15 r, Apart j k) (h15 : j ≠ 15) (size : Nat) (x : Word) :
    (a.loadRegs size r x).2.reg j = a.reg j := by
  unfold Arm.loadRegs
  have := loadAll_apart (low15 r) x a h
  cases hl : a.loadAll (low15 r) x with
  | mk res b =>
    rw [hl] at this
    cases res with
    | ok y =>
      simp only at this ⊢
      rw [← this]
      unfold Arm.loadPc
      split
      · cases peek b.mem y.toNat 4 with
        | ok v => exact set_apart (apart15 h15) _
        | error e => rfl
      · exact next_apart h15 _
    | error e => exact this

theorem loadRegs_extra (a : Arm) (size : Nat) (r : BitVec 16) (x : Word) : (a.loadRegs size r x).2.extra = a.extra := by
  unfold Arm.loadRegs
  have := loadAll_extra (low15 r) x a
  cases hl : a.loadAll (low15 r) x with
  | mk res b =>
    rw [hl] at this
    cases res with
    | ok y =>
      simp only at this ⊢
      rw [← this]
      unfold Arm.loadPc
      split
      · cases peek b.mem y.toNat 4 <;> rfl
      · rfl
    | error e => exact this

theorem flags_extra (a : Arm) (on : Bool) (r : Word) (c v : Option Bool) : (a.flags on r c v).extra = a.extra := by
  unfold Arm.flags; split <;> rfl

namespace Thumb

/-- The registers an action may change besides PC and the flags. MSR has none, as cmdis
does not write the special registers. -/
def Act.targets : Act → List Int
  | .addSub _ _ _ d _ _ => [(d : Int)]
  | .rsb _ d _ _ => [(d : Int)]
  | .logic _ _ d _ _ => [(d : Int)]
  | .bic _ d _ _ => [(d : Int)]
  | .shiftImm _ _ d _ _ => [(d : Int)]
  | .shiftReg _ _ d _ _ => [(d : Int)]
  | .mul _ d _ _ => [(d : Int)]
  | .adr _ d _ => [(d : Int)]
  | .extend _ _ _ d _ => [(d : Int)]
  | .rev _ d _ => [(d : Int)]
  | .mov _ _ d _ _ => [(d : Int)]
  | .bl _ => [14]
  | .blx _ => [14]
  | .load _ _ t _ _ => [(t : Int)]
  | .loadLit _ _ _ t _ => [(t : Int)]
  | .push _ => [13]
  | .pop r => 13 :: (listed r).map Int.ofNat
  | .ldm n wback r => (if wback then [(n : Int)] else []) ++ (listed r).map Int.ofNat
  | .stm n wback _ => if wback then [(n : Int)] else []
  | .cps _ pri fault => (if pri then [-1] else []) ++ (if fault then [-3] else [])
  | .mrs d _ => [(d : Int)]
  | _ => []

/-- The bits of xPSR an action may change. -/
def Act.flagBits : Act → List Nat
  | .addSub _ _ flags _ _ _ => if flags then [31, 30, 29, 28] else []
  | .rsb flags _ _ _ => if flags then [31, 30, 29, 28] else []
  | .logic _ flags _ _ _ => if flags then [31, 30] else []
  | .bic flags _ _ _ => if flags then [31, 30] else []
  | .shiftImm _ flags _ _ _ => if flags then [31, 30, 29] else []
  | .shiftReg _ flags _ _ _ => if flags then [31, 30, 29] else []
  | .mul flags _ _ _ => if flags then [31, 30] else []
  | .mov _ flags _ _ _ => if flags then [31, 30] else []
  | .cmp _ _ _ => [31, 30, 29, 28]
  | .tst _ _ _ => [31, 30, 29]
  | _ => []

end Thumb

theorem low15_sub {r : BitVec 16} {k : Nat} (h : k ∈ low15 r) : k ∈ listed r := by
  unfold low15 at h
  unfold listed
  rw [List.mem_filter] at h ⊢
  exact ⟨List.mem_range.2 (by have := List.mem_range.1 h.1; omega), h.2⟩

theorem loadTo_apart {j : Int} {a : Arm} {t : Nat} (h : Apart j t) (h15 : j ≠ 15) (size sz : Nat) (sgn : Bool) (x : Word) :
    (a.loadTo size sz sgn t x).2.reg j = a.reg j := by
  unfold Arm.loadTo
  cases peek a.mem x.toNat (sz / 8) with
  | ok v => exact (next_apart h15 _).trans (set_apart h _)
  | error e => rfl

theorem loadTo_extra (a : Arm) (size sz : Nat) (sgn : Bool) (t : Nat) (x : Word) :
    (a.loadTo size sz sgn t x).2.extra = a.extra := by
  unfold Arm.loadTo
  cases peek a.mem x.toNat (sz / 8) <;> rfl

/-- Registers other than PC, xPSR and the targets. -/
theorem effect_apart {act : Act} {j : Int} (h15 : j ≠ 15) (h16 : j ≠ 16) (h : ∀ k ∈ act.targets, Apart j k) (size : Nat) (a : Arm) :
    (act.effect size a).2.reg j = a.reg j := by
  cases act with
  | addSub sub carry flags d n src =>
    exact (next_apart h15 _).trans ((flags_apart h16 _ _ _ _).trans (set_apart (h _ List.mem_cons_self) _))
  | rsb flags d n imm => exact (next_apart h15 _).trans ((flags_apart h16 _ _ _ _).trans (set_apart (h _ List.mem_cons_self) _))
  | logic f flags d n m => exact (next_apart h15 _).trans ((flags_apart h16 _ _ _ _).trans (set_apart (h _ List.mem_cons_self) _))
  | bic flags d n m => exact (next_apart h15 _).trans ((flags_apart h16 _ _ _ _).trans (set_apart (h _ List.mem_cons_self) _))
  | shiftImm t flags d m k => exact (next_apart h15 _).trans ((flags_apart h16 _ _ _ _).trans (set_apart (h _ List.mem_cons_self) _))
  | shiftReg t flags d n m => exact (next_apart h15 _).trans ((flags_apart h16 _ _ _ _).trans (set_apart (h _ List.mem_cons_self) _))
  | mul flags d n m => exact (next_apart h15 _).trans ((flags_apart h16 _ _ _ _).trans (set_apart (h _ List.mem_cons_self) _))
  | adr add d imm => exact (next_apart h15 _).trans (set_apart (h _ List.mem_cons_self) _)
  | extend sgn width rotation d m => exact (next_apart h15 _).trans (set_apart (h _ List.mem_cons_self) _)
  | rev kind d m => exact (next_apart h15 _).trans (set_apart (h _ List.mem_cons_self) _)
  | mov neg flags d src => exact (next_apart h15 _).trans ((flags_apart h16 _ _ _ _).trans (set_apart (h _ List.mem_cons_self) _))
  | mvnShift flags d m sh => rfl
  | cmp sub n src => exact (next_apart h15 _).trans (flags_apart h16 _ _ _ _)
  | tst n m sh => exact (next_apart h15 _).trans (flags_apart h16 _ _ _ _)
  | branch cond offset =>
    show (if a.holds cond then a.set 15 (a.reg 15 + 4#32 + offset) else a.next size).reg j = _
    split
    · exact set_apart (apart15 h15) _
    · exact next_apart h15 _
  | bl offset => exact (set_apart (apart15 h15) _).trans (set_apart (h _ List.mem_cons_self) _)
  | blx m => exact (set_apart (apart15 h15) _).trans (set_apart (h _ List.mem_cons_self) _)
  | bx m => exact set_apart (apart15 h15) _
  | load sz sgn t n off => exact loadTo_apart (h _ List.mem_cons_self) h15 _ _ _ _
  | store sz t n off => exact next_apart h15 _
  | loadLit sz sgn add t imm => exact loadTo_apart (h _ List.mem_cons_self) h15 _ _ _ _
  | push r =>
    show (((a.set 13 (a.reg 13 - w32 (4 * count r))).storeAll (low15 r) (a.reg 13 - w32 (4 * count r))).next size).reg j = _
    rw [next_apart h15, storeAll_reg]
    exact set_apart (h _ List.mem_cons_self) _
  | pop r =>
    refine (loadRegs_apart (fun k hk => h _ (List.mem_cons_of_mem _ (List.mem_map.2 ⟨k, low15_sub hk, rfl⟩))) h15 _ _).trans ?_
    exact set_apart (h _ List.mem_cons_self) _
  | ldm n wback r =>
    show (a.ldm size n wback r).2.reg j = _
    unfold Arm.ldm
    have hr := loadRegs_apart (a := a) (r := r) (fun k hk => h _ (List.mem_append_right _ (List.mem_map.2 ⟨k, low15_sub hk, rfl⟩))) h15 size
      (a.reg n)
    cases hl : a.loadRegs size r (a.reg n) with
    | mk res b =>
      rw [hl] at hr
      cases res with
      | ok u =>
        simp only at hr ⊢
        rw [← hr]
        unfold Arm.writeBack
        cases wback with
        | false => rfl
        | true =>
          split
          · exact set_apart (h _ (List.mem_append_left _ (by simp))) _
          · rfl
      | error e => exact hr
  | stm n wback r =>
    show ((a.stm n wback r).next size).reg j = _
    rw [next_apart h15]
    unfold Arm.stm
    cases wback with
    | false => rw [if_neg (by simp), storeAll_reg]
    | true => rw [if_pos rfl, set_apart (h _ (by simp [Act.targets])), storeAll_reg]
  | cps enable pri fault =>
    show ((a.cps enable pri fault).next size).reg j = _
    rw [next_apart h15]
    unfold Arm.cps
    cases pri <;> cases fault
    · rfl
    · exact set_apart (h _ (by simp [Act.targets])) _
    · exact set_apart (h _ (by simp [Act.targets])) _
    · exact (set_apart (h _ (by simp [Act.targets])) _).trans (set_apart (h _ (by simp [Act.targets])) _)
  | mrs d sysm =>
    show (a.mrs size d sysm).2.reg j = _
    unfold Arm.mrs
    cases a.special sysm.toNat with
    | ok v => exact (next_apart h15 _).trans (set_apart (h _ List.mem_cons_self) _)
    | error e => rfl
  | msr n mask sysm => exact next_apart h15 _
  | plain => exact next_apart h15 _

/-- What is not a register is not changed. -/
theorem effect_extra (act : Act) (size : Nat) (a : Arm) : (act.effect size a).2.extra = a.extra := by
  cases act with
  | branch cond offset =>
    show (if a.holds cond then a.set 15 (a.reg 15 + 4#32 + offset) else a.next size).extra = _
    split <;> rfl
  | load sz sgn t n off => exact loadTo_extra _ _ _ _ _ _
  | loadLit sz sgn add t imm => exact loadTo_extra _ _ _ _ _ _
  | push r => exact storeAll_extra _ _ _
  | pop r => exact loadRegs_extra _ _ _ _
  | ldm n wback r =>
    show (a.ldm size n wback r).2.extra = _
    unfold Arm.ldm
    have hr := loadRegs_extra a size r (a.reg n)
    cases hl : a.loadRegs size r (a.reg n) with
    | mk res b =>
      rw [hl] at hr
      cases res with
      | ok u =>
        simp only at hr ⊢
        rw [← hr]
        unfold Arm.writeBack
        split <;> rfl
      | error e => exact hr
  | stm n wback r =>
    show (a.stm n wback r).extra = _
    unfold Arm.stm
    split
    · exact storeAll_extra _ _ _
    · exact storeAll_extra _ _ _
  | cps enable pri fault =>
    show (a.cps enable pri fault).extra = _
    unfold Arm.cps
    cases pri <;> cases fault <;> rfl
  | mrs d sysm =>
    show (a.mrs size d sysm).2.extra = _
    unfold Arm.mrs
    cases a.special sysm.toNat <;> rfl
  | addSub => exact flags_extra _ _ _ _ _
  | rsb => exact flags_extra _ _ _ _ _
  | logic => exact flags_extra _ _ _ _ _
  | bic => exact flags_extra _ _ _ _ _
  | shiftImm => exact flags_extra _ _ _ _ _
  | shiftReg => exact flags_extra _ _ _ _ _
  | mul => exact flags_extra _ _ _ _ _
  | mov => exact flags_extra _ _ _ _ _
  | cmp => exact flags_extra _ _ _ _ _
  | tst => exact flags_extra _ _ _ _ _
  | _ => rfl

/-! ### xPSR -/

theorem newFlags_bits (x : Word) (n z : Bool) (c v : Option Bool) {b : Nat} (hb : b ≠ 31 ∧ b ≠ 30) (hc : b ≠ 29 ∨ c = none)
    (hv : b ≠ 28 ∨ v = none) : (newFlags x n z c v).getLsbD b = x.getLsbD b := by
  unfold newFlags
  have h1 : (withBit (withBit x 31 n) 30 z).getLsbD b = x.getLsbD b := by
    rw [getLsbD_withBit _ _ (by omega), if_neg hb.2, getLsbD_withBit _ _ (by omega), if_neg hb.1]
  rcases c with _ | c <;> rcases v with _ | v <;> simp only
  · exact h1
  · rw [getLsbD_withBit _ _ (by omega), if_neg (by simpa using hv), h1]
  · rw [getLsbD_withBit _ _ (by omega), if_neg (by simpa using hc), h1]
  · rw [getLsbD_withBit _ _ (by omega), if_neg (by simpa using hv), getLsbD_withBit _ _ (by omega), if_neg (by simpa using hc), h1]

theorem keep16 (v : Word) : keepBits 16 v = v := rfl

theorem set16_reg (a : Arm) (v : Word) : (a.set 16 v).reg 16 = v := by
  unfold Arm.set
  simp [keepBits]

theorem flags_bits (a : Arm) (on : Bool) (r : Word) (c v : Option Bool) {b : Nat}
    (h : on = true → (b ≠ 31 ∧ b ≠ 30) ∧ (b ≠ 29 ∨ c = none) ∧ (b ≠ 28 ∨ v = none)) :
    ((a.flags on r c v).reg 16).getLsbD b = (a.reg 16).getLsbD b := by
  unfold Arm.flags
  cases on with
  | false => rfl
  | true =>
    rw [if_pos rfl, set16_reg]
    obtain ⟨h1, h2, h3⟩ := h rfl
    exact newFlags_bits _ _ _ _ _ h1 h2 h3

theorem next16 (a : Arm) (size : Nat) : (a.next size).reg 16 = a.reg 16 := next_apart (by decide) _

/-- The bits of xPSR other than the flags of the action. -/
theorem effect_flagBits {act : Act} (h : ∀ k ∈ act.targets, Apart 16 k) {b : Nat} (hb : b ∉ act.flagBits) (size : Nat) (a : Arm) :
    ((act.effect size a).2.reg 16).getLsbD b = (a.reg 16).getLsbD b := by
  have hf : ∀ (d : Nat) (r : Word) (on : Bool) (c v : Option Bool), Apart 16 d →
      (on = true → (b ≠ 31 ∧ b ≠ 30) ∧ (b ≠ 29 ∨ c = none) ∧ (b ≠ 28 ∨ v = none)) →
      ((((a.set d r).flags on r c v).next size).reg 16).getLsbD b = (a.reg 16).getLsbD b := by
    intro d r on c v hd hon
    rw [next16, flags_bits _ _ _ _ _ hon, set_apart hd]
  by_cases hz : act.flagBits = []
  · have key : (act.effect size a).2.reg 16 = a.reg 16 := by
      cases act with
      | addSub sub carry flags d n src =>
        have : flags = false := by cases flags <;> first | rfl | simp [Act.flagBits] at hz
        subst this
        exact (next16 _ _).trans (set_apart (h _ List.mem_cons_self) _)
      | rsb flags d n imm =>
        have : flags = false := by cases flags <;> first | rfl | simp [Act.flagBits] at hz
        subst this
        exact (next16 _ _).trans (set_apart (h _ List.mem_cons_self) _)
      | logic f flags d n m =>
        have : flags = false := by cases flags <;> first | rfl | simp [Act.flagBits] at hz
        subst this
        exact (next16 _ _).trans (set_apart (h _ List.mem_cons_self) _)
      | bic flags d n m =>
        have : flags = false := by cases flags <;> first | rfl | simp [Act.flagBits] at hz
        subst this
        exact (next16 _ _).trans (set_apart (h _ List.mem_cons_self) _)
      | shiftImm t flags d m k =>
        have : flags = false := by cases flags <;> first | rfl | simp [Act.flagBits] at hz
        subst this
        exact (next16 _ _).trans (set_apart (h _ List.mem_cons_self) _)
      | shiftReg t flags d n m =>
        have : flags = false := by cases flags <;> first | rfl | simp [Act.flagBits] at hz
        subst this
        exact (next16 _ _).trans (set_apart (h _ List.mem_cons_self) _)
      | mul flags d n m =>
        have : flags = false := by cases flags <;> first | rfl | simp [Act.flagBits] at hz
        subst this
        exact (next16 _ _).trans (set_apart (h _ List.mem_cons_self) _)
      | mov neg flags d src =>
        have : flags = false := by cases flags <;> first | rfl | simp [Act.flagBits] at hz
        subst this
        exact (next16 _ _).trans (set_apart (h _ List.mem_cons_self) _)
      | cmp => exact absurd hz (by simp [Act.flagBits])
      | tst => exact absurd hz (by simp [Act.flagBits])
      | adr add d imm => exact (next16 _ _).trans (set_apart (h _ List.mem_cons_self) _)
      | extend sgn width rotation d m => exact (next16 _ _).trans (set_apart (h _ List.mem_cons_self) _)
      | rev kind d m => exact (next16 _ _).trans (set_apart (h _ List.mem_cons_self) _)
      | mvnShift flags d m sh => rfl
      | branch cond offset =>
        show (if a.holds cond then a.set 15 (a.reg 15 + 4#32 + offset) else a.next size).reg 16 = _
        split
        · exact set_apart (apart15 (by decide)) _
        · exact next16 _ _
      | bl offset => exact (set_apart (apart15 (by decide)) _).trans (set_apart (h _ List.mem_cons_self) _)
      | blx m => exact (set_apart (apart15 (by decide)) _).trans (set_apart (h _ List.mem_cons_self) _)
      | bx m => exact set_apart (apart15 (by decide)) _
      | load sz sgn t n off => exact loadTo_apart (h _ List.mem_cons_self) (by decide) _ _ _ _
      | store sz t n off => exact next16 _ _
      | loadLit sz sgn add t imm => exact loadTo_apart (h _ List.mem_cons_self) (by decide) _ _ _ _
      | push r =>
        show (((a.set 13 (a.reg 13 - w32 (4 * count r))).storeAll (low15 r) (a.reg 13 - w32 (4 * count r))).next size).reg 16 = _
        rw [next16, storeAll_reg]
        exact set_apart (h _ List.mem_cons_self) _
      | pop r =>
        refine (loadRegs_apart (fun k hk => h _ (List.mem_cons_of_mem _ (List.mem_map.2 ⟨k, low15_sub hk, rfl⟩))) (by decide) _ _).trans ?_
        exact set_apart (h _ List.mem_cons_self) _
      | ldm n wback r =>
        show (a.ldm size n wback r).2.reg 16 = _
        unfold Arm.ldm
        have hr := loadRegs_apart (a := a) (r := r) (fun k hk => h _ (List.mem_append_right _ (List.mem_map.2 ⟨k, low15_sub hk, rfl⟩)))
          (by decide) size (a.reg n)
        cases hl : a.loadRegs size r (a.reg n) with
        | mk res b =>
          rw [hl] at hr
          cases res with
          | ok u =>
            simp only at hr ⊢
            rw [← hr]
            unfold Arm.writeBack
            cases wback with
            | false => rfl
            | true =>
              split
              · exact set_apart (h _ (List.mem_append_left _ (by simp))) _
              · rfl
          | error e => exact hr
      | stm n wback r =>
        show ((a.stm n wback r).next size).reg 16 = _
        rw [next16]
        unfold Arm.stm
        cases wback with
        | false => rw [if_neg (by simp), storeAll_reg]
        | true => rw [if_pos rfl, set_apart (h _ (by simp [Act.targets])), storeAll_reg]
      | cps enable pri fault =>
        show ((a.cps enable pri fault).next size).reg 16 = _
        rw [next16]
        unfold Arm.cps
        cases pri <;> cases fault <;> rfl
      | mrs d sysm =>
        show (a.mrs size d sysm).2.reg 16 = _
        unfold Arm.mrs
        cases a.special sysm.toNat with
        | ok v => exact (next16 _ _).trans (set_apart (h _ List.mem_cons_self) _)
        | error e => rfl
      | msr n mask sysm => exact next16 _ _
      | plain => exact next16 _ _
    rw [key]
  · cases act with
    | addSub sub carry flags d n src =>
      exact hf d _ _ _ _ (h _ List.mem_cons_self) fun e => by subst e; simp [Act.flagBits] at hb; simp; omega
    | rsb flags d n imm =>
      exact hf d _ _ _ _ (h _ List.mem_cons_self) fun e => by subst e; simp [Act.flagBits] at hb; simp; omega
    | logic f flags d n m =>
      exact hf d _ _ _ _ (h _ List.mem_cons_self) fun e => by subst e; simp [Act.flagBits] at hb; simp; omega
    | bic flags d n m =>
      exact hf d _ _ _ _ (h _ List.mem_cons_self) fun e => by subst e; simp [Act.flagBits] at hb; simp; omega
    | shiftImm t flags d m k =>
      exact hf d _ _ _ _ (h _ List.mem_cons_self) fun e => by subst e; simp [Act.flagBits] at hb; simp; omega
    | shiftReg t flags d n m =>
      exact hf d _ _ _ _ (h _ List.mem_cons_self) fun e => by subst e; simp [Act.flagBits] at hb; simp; omega
    | mul flags d n m =>
      exact hf d _ _ _ _ (h _ List.mem_cons_self) fun e => by subst e; simp [Act.flagBits] at hb; simp; omega
    | mov neg flags d src =>
      refine hf d _ _ _ _ (h _ List.mem_cons_self) fun e => ?_
      have : flags = true := by cases flags <;> simp_all
      subst this; simp [Act.flagBits] at hb; simp; omega
    | cmp sub n src =>
      refine (congrArg (·.getLsbD b) (next16 _ _)).trans (flags_bits _ _ _ _ _ fun _ => ?_)
      simp [Act.flagBits] at hb; simp; omega
    | tst n m sh =>
      refine (congrArg (·.getLsbD b) (next16 _ _)).trans (flags_bits _ _ _ _ _ fun _ => ?_)
      simp [Act.flagBits] at hb; simp; omega
    | _ => exact absurd rfl hz

/-! ### Memory -/

/-- Every region has at least as many bytes as addresses. Writing past the end of a
region keeps this, unlike `MemOK`. -/
def MemFull (mem : List Region) : Prop := ∀ m ∈ mem, m.stop - m.start + 1 ≤ m.data.length

theorem putBytes_long (data new : List Nat) (i n : Nat) (h : i ≤ data.length) (hn : new.length = n) :
    data.length ≤ (putBytes data i n new).length := by
  unfold putBytes
  simp only [List.length_append, List.length_take, List.length_drop]; omega

theorem flat_cons (m : Region) (t : List Region) (y : Int) :
    flat (m :: t) y = if m.has y then m.data[(y - m.start).toNat]? else flat t y := by
  unfold flat
  rw [List.find?_cons]
  cases m.has y <;> simp

theorem updMem_full {x : Int} {n : Nat} {new : List Nat} (hn : new.length = n) : ∀ {mem : List Region}, MemFull mem →
    MemFull (updMem x n new mem)
  | [], h => h
  | m :: t, h => by
    have hm := h m List.mem_cons_self
    unfold updMem
    by_cases hx : m.has x
    · rw [if_pos hx]
      have hx' := has_iff.1 hx
      intro r hr
      rcases List.mem_cons.1 hr with rfl | hr
      · have := putBytes_long m.data new (x - m.start).toNat n (by omega) hn
        simp only
        omega
      · exact h r (List.mem_cons_of_mem _ hr)
    · rw [if_neg hx]
      intro r hr
      rcases List.mem_cons.1 hr with rfl | hr
      · exact hm
      · exact updMem_full hn (fun r hr => h r (List.mem_cons_of_mem _ hr)) r hr

theorem flat_updMem_other {x y : Int} {n : Nat} {new : List Nat} (hn : new.length = n) (hy : ¬ (x ≤ y ∧ y < x + n)) :
    ∀ {mem : List Region}, MemFull mem → flat (updMem x n new mem) y = flat mem y
  | [], _ => rfl
  | m :: t, h => by
    have hm := h m List.mem_cons_self
    unfold updMem
    by_cases hx : m.has x
    · rw [if_pos hx, flat_cons, flat_cons]
      by_cases hmy : m.has y
      · have h1 := has_iff.1 hx
        have h2 := has_iff.1 hmy
        rw [if_pos (by exact hmy), if_pos hmy]
        simp only
        rw [putBytes_getElem_inside _ _ _ _ _ (by omega) (by omega) hn, if_neg (by omega)]
      · rw [if_neg (by exact hmy), if_neg hmy]
    · rw [if_neg hx, flat_cons, flat_cons, flat_updMem_other hn hy fun r hr => h r (List.mem_cons_of_mem _ hr)]

theorem poke_full {mem : List Region} (h : MemFull mem) (x : Int) (n : Nat) (v : Int) : MemFull (poke mem x n v) :=
  updMem_full (by simp) h

theorem flat_poke_other {mem : List Region} (h : MemFull mem) {x y : Int} {n : Nat} (hy : ¬ (x ≤ y ∧ y < x + n)) (v : Int) :
    flat (poke mem x n v) y = flat mem y := flat_updMem_other (by simp) hy h

/-- The bytes of `n` words from an address, which wraps round at the end of memory. -/
def InWords (x : Word) (n : Nat) (y : Int) : Prop := ∃ j < n, ((x + w32 (4 * j)).toNat : Int) ≤ y ∧ y < (x + w32 (4 * j)).toNat + 4

theorem inWords_tail {x : Word} {n : Nat} {y : Int} (h : InWords (x + 4#32) n y) : InWords x (n + 1) y := by
  obtain ⟨j, hj, h1⟩ := h
  refine ⟨j + 1, by omega, ?_⟩
  have : x + w32 (4 * (j + 1)) = x + 4#32 + w32 (4 * j) := by
    apply BitVec.eq_of_toNat_eq
    simp [w32, BitVec.toNat_add, BitVec.toNat_ofNat]
    omega
  rw [this]; exact h1

theorem storeAll_full : ∀ (ks : List Nat) (x : Word) (a : Arm), MemFull a.mem → MemFull (a.storeAll ks x).mem
  | [], _, _, h => h
  | k :: ks, x, a, h => by
    unfold Arm.storeAll
    exact storeAll_full ks _ _ (poke_full h _ _ _)

theorem storeAll_flat_other {y : Int} : ∀ (ks : List Nat) (x : Word) (a : Arm), MemFull a.mem → ¬ InWords x ks.length y →
    flat (a.storeAll ks x).mem y = flat a.mem y
  | [], _, _, _, _ => rfl
  | k :: ks, x, a, h, hy => by
    unfold Arm.storeAll
    rw [storeAll_flat_other ks _ _ (poke_full h _ _ _) fun hw => hy (inWords_tail hw)]
    refine flat_poke_other h (fun hc => hy ⟨0, by simp, ?_⟩) _
    have : x + w32 (4 * 0) = x := by simp [w32]
    rw [this]
    exact hc

namespace Thumb

/-- The addresses an action stores to. -/
def Act.stored (s : Core) (y : Int) : Act → Prop
  | .store sz _ n off => (s.rd n + off.val s).toNat ≤ y ∧ y < (s.rd n + off.val s).toNat + (sz / 8 : Nat)
  | .push r => InWords (s.reg 13 - w32 (4 * count r)) (count r) y
  | .stm n _ r => InWords (s.reg n) (count r) y
  | _ => False

end Thumb

theorem low15_le (r : BitVec 16) : (low15 r).length ≤ count r := by
  have : (listed r).length = count r := listed_length r
  rw [← this]
  unfold listed low15
  rw [show List.range 16 = List.range 15 ++ [15] by decide, List.filter_append, List.length_append]
  omega

theorem InWords.mono {x : Word} {m n : Nat} {y : Int} (h : m ≤ n) : InWords x m y → InWords x n y
  | ⟨j, hj, h1⟩ => ⟨j, by omega, h1⟩

theorem effect_full (act : Act) (size : Nat) {a : Arm} (h : MemFull a.mem) : MemFull (act.effect size a).2.mem := by
  by_cases hs : act.Stores
  · cases act with
    | store sz t n off => exact poke_full h _ _ _
    | push r => exact storeAll_full _ _ _ h
    | stm n wback r =>
      show MemFull (a.stm n wback r).mem
      unfold Arm.stm
      split
      · exact storeAll_full _ _ _ h
      · exact storeAll_full _ _ _ h
    | _ => exact absurd hs id
  · rw [effect_mem hs]; exact h

/-- Bytes that are not stored to. -/
theorem effect_flat_other {act : Act} (size : Nat) {a : Arm} (h : MemFull a.mem) (hp : act.NoPc) {y : Int}
    (hy : ¬ act.stored a.core y) : flat (act.effect size a).2.mem y = flat a.mem y := by
  by_cases hs : act.Stores
  · cases act with
    | store sz t n off =>
      refine flat_poke_other h (fun hc => hy ?_) _
      simp only [Act.stored]
      rw [core_rd _ hp.2.1, off_val hp.2.2]
      exact hc
    | push r =>
      refine storeAll_flat_other (low15 r) _ _ h fun hc => hy (hc.mono (low15_le r))
    | stm n wback r =>
      show flat (a.stm n wback r).mem y = _
      unfold Arm.stm
      have := storeAll_flat_other (low15 r) (a.reg n) a h fun hc => hy (hc.mono (low15_le r))
      split
      · exact this
      · exact this
    | _ => exact absurd hs id
  · rw [effect_mem hs]

/-! ### The object afterwards -/

theorem withImm_some {i : Instr} {u : BS} (h : i.imm32 = some u) (v : BS) : withImm i v = { i with imm32 := some v } := by
  unfold withImm
  rw [h]

theorem withImm_none {i : Instr} (h : i.imm32 = none) (v : BS) : withImm i v = i := by
  unfold withImm
  rw [h]

/-- The object left by an execution is again that of an action. -/
theorem leaves_of {act : Act} {i : Instr} (h : act.Of i) (hv : act.Valid) (a : Arm) :
    ∃ act' : Act, act'.Of (act.leaves a i) ∧ act'.Valid := by
  cases act with
  | addSub sub carry flags d n src =>
    cases src with
    | reg m => exact ⟨_, by rw [Act.leaves, withImm_none h.2.2.2.2.2.2.1]; exact h, hv⟩
    | imm v =>
      refine ⟨.addSub sub carry flags d n (.imm (C17.spoil (if sub then ~~~v else v))), ?_, trivial⟩
      obtain ⟨h1, h2, h3, h4, h5, h6, h7, h8⟩ := h
      rw [Act.leaves, withImm_some h8]
      exact ⟨h1, h2, h3, h4, h5, h6, h7, rfl⟩
  | rsb flags d n imm =>
    refine ⟨.rsb flags d n (C17.spoil imm), ?_, trivial⟩
    obtain ⟨h1, h2, h3, h4, h5⟩ := h
    rw [Act.leaves, withImm_some h5]
    exact ⟨h1, h2, h3, h4, rfl⟩
  | cmp sub n src =>
    cases src with
    | reg m => exact ⟨_, by rw [Act.leaves, withImm_none h.2.2.2.1]; exact h, hv⟩
    | imm v =>
      refine ⟨.cmp sub n (.imm (C17.spoil (if sub then ~~~v else v))), ?_, trivial⟩
      obtain ⟨h1, h2, h3, h4, h5⟩ := h
      rw [Act.leaves, withImm_some h5]
      exact ⟨h1, h2, h3, h4, rfl⟩
  | mov neg flags d src =>
    cases src with
    | reg m =>
      by_cases hm : m = 15
      · refine ⟨.mov neg false d (.reg m), ?_, trivial⟩
        obtain ⟨h1, h2, h3, h4, h5⟩ := h
        rw [Act.leaves, movedInstr, if_pos hm]
        exact ⟨h1, h2, ⟨.never, rfl, rfl⟩, h4, h5⟩
      · exact ⟨_, by rw [Act.leaves, movedInstr, if_neg hm]; exact h, hv⟩
    | imm v =>
      cases neg with
      | false => exact ⟨_, h, hv⟩
      | true =>
        refine ⟨.mov true flags d (.imm (~~~v)), ?_, trivial⟩
        obtain ⟨h1, h2, h3, h4, h5, h6⟩ := h
        rw [Act.leaves, movedInstr, if_pos rfl, withImm_some h6]
        exact ⟨h1, h2, h3, h4, h5, rfl⟩
  | _ => exact ⟨_, h, hv⟩

/-- The registers an object of an action names are the sixteen. -/
theorem targets_of {act : Act} {i : Instr} (h : act.Of i) : ∀ k ∈ act.targets, -4 ≤ k ∧ k < 16 := by
  have hl : ∀ (r : BitVec 16), ∀ k ∈ (listed r).map Int.ofNat, -4 ≤ k ∧ k < 16 := by
    intro r k hk
    obtain ⟨j, hj, rfl⟩ := List.mem_map.1 hk
    have := List.mem_range.1 (List.mem_filter.1 hj).1
    simp only [Int.ofNat_eq_natCast]
    omega
  have h1 : ∀ (r : Option Nat) (d : Nat), IsReg r d → ∀ k ∈ [(d : Int)], -4 ≤ k ∧ k < 16 := by
    intro r d hd k hk
    have := hd.2
    simp only [List.mem_singleton] at hk
    omega
  cases act with
  | addSub => exact h1 _ _ h.2.2.2.2.1
  | rsb => exact h1 _ _ h.2.2.1
  | logic => exact h1 _ _ h.2.2.2.1
  | bic => exact h1 _ _ h.2.2.1
  | shiftImm => exact h1 _ _ h.2.2.2.2.1
  | shiftReg => exact h1 _ _ h.2.2.2.2.1
  | mul => exact h1 _ _ h.2.2.1
  | adr => exact h1 _ _ h.2.2.1
  | extend => exact h1 _ _ h.2.2.2.2.1
  | rev => exact h1 _ _ h.2.2.2.1
  | mov => exact h1 _ _ h.2.2.2.1
  | load => exact h1 _ _ h.2.2.2.1
  | loadLit => exact h1 _ _ h.2.2.2.2.1
  | mrs => exact h1 _ _ h.2.1
  | bl => intro k hk; simp only [Act.targets, List.mem_singleton] at hk; omega
  | blx => intro k hk; simp only [Act.targets, List.mem_singleton] at hk; omega
  | push => intro k hk; simp only [Act.targets, List.mem_singleton] at hk; omega
  | pop r =>
    intro k hk
    rcases List.mem_cons.1 hk with rfl | hk
    · omega
    · exact hl r k hk
  | ldm n wback r =>
    intro k hk
    rcases List.mem_append.1 hk with hk | hk
    · cases wback with
      | false => simp at hk
      | true => exact h1 _ _ h.2.1 k hk
    · exact hl r k hk
  | stm n wback r =>
    intro k hk
    cases wback with
    | false => simp [Act.targets] at hk
    | true => exact h1 _ _ h.2.1 k hk
  | cps enable pri fault =>
    intro k hk
    cases pri <;> cases fault <;> simp [Act.targets] at hk <;> omega
  | _ => intro k hk; simp [Act.targets] at hk

end Verif
