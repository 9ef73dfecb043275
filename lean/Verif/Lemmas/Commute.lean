import Verif.Lemmas.Depends

/-!
# Executing actions that do not look at PC
-/

namespace Verif
open BS CpuM Thumb Exec

namespace Thumb

/-- The action has to do with PC: it branches, computes an address from PC or always
raises. -/
def Act.UsesPc : Act → Prop
  | .adr .. => True
  | .mvnShift .. => True
  | .branch .. => True
  | .bl _ => True
  | .blx _ => True
  | .bx _ => True
  | .loadLit .. => True
  | _ => False

/-- The action goes on with the next instruction and does not look at PC. -/
structure Act.Straight (act : Act) : Prop where
  uses : ¬ act.UsesPc
  source : 15 ∉ act.sources
  target : 15 ∉ act.targets

end Thumb

theorem set15_reg (a : Arm) (v : Word) : (a.set 15 v).reg 15 = v := rfl

theorem set15_other (a : Arm) (v : Word) {j : Int} (h : j ≠ 15) : (a.set 15 v).reg j = a.reg j := set_apart (apart15 h) _

theorem set15_set15 (a : Arm) (v w : Word) : (a.set 15 v).set 15 w = a.set 15 w := by
  apply Arm.ext
  · funext j
    simp only [reg_set]
    split <;> rfl
  · rfl
  · rfl

theorem set15_self (a : Arm) : a.set 15 (a.reg 15) = a := by
  apply Arm.ext
  · funext j
    by_cases h : j = 15
    · subst h; rfl
    · exact set15_other a _ h
  · rfl
  · rfl

theorem set_set15 (a : Arm) {k : Int} (hk : k ≠ 15) (v w : Word) : (a.set 15 v).set k w = (a.set k w).set 15 v := by
  apply Arm.ext
  · funext j
    by_cases h : j = 15
    · subst h
      rw [set15_reg, set_apart ⟨by omega, by omega, by omega⟩]
      rfl
    · rw [set15_other (a.set k w) v h, reg_set (a.set 15 v) k, reg_set a k, set15_other a v h]
  · rfl
  · rfl

theorem flags_set15 (a : Arm) (v : Word) (on : Bool) (r : Word) (c o : Option Bool) :
    (a.set 15 v).flags on r c o = (a.flags on r c o).set 15 v := by
  unfold Arm.flags
  split
  · rw [set_set15 _ (by decide), set15_other _ _ (by decide)]
  · rfl

theorem next_set15 (a : Arm) (v : Word) (size : Nat) : (a.set 15 v).next size = (a.next size).set 15 (v + BitVec.ofNat 32 size) := by
  unfold Arm.next
  rw [set15_reg, set15_set15, set15_set15]

theorem flag_set15 (a : Arm) (v : Word) (n : Nat) : (a.set 15 v).flag n = a.flag n := rfl

theorem special_set15 (a : Arm) (v : Word) (n : Nat) : (a.set 15 v).special n = a.special n := rfl

theorem src_set15 {src : Src} (h : 15 ∉ src.regs) (a : Arm) (v : Word) : src.got (a.set 15 v) = src.got a :=
  Src.alike fun _ hk => set15_other a v fun e => h (e ▸ hk)

theorem off_set15 {off : Off} (h : 15 ∉ off.regs) (a : Arm) (v : Word) : off.got (a.set 15 v) = off.got a :=
  Off.alike (fun _ hk => set15_other a v fun e => h (e ▸ hk)) fun _ _ _ _ => rfl

theorem storeAll_set15 : ∀ (ks : List Nat) (x : Word) (a : Arm) (v : Word), (∀ k ∈ ks, k ≠ 15) →
    (a.set 15 v).storeAll ks x = (a.storeAll ks x).set 15 v
  | [], _, _, _, _ => rfl
  | k :: ks, x, a, v, h => by
    unfold Arm.storeAll
    rw [← storeAll_set15 ks _ _ _ fun j hj => h j (List.mem_cons_of_mem _ hj),
      set15_other _ _ (by have := h k List.mem_cons_self; omega)]
    rfl

theorem loadAll_set15 : ∀ (ks : List Nat) (x : Word) (a : Arm) (v : Word), (∀ k ∈ ks, k ≠ 15) →
    (a.set 15 v).loadAll ks x = ((a.loadAll ks x).1, (a.loadAll ks x).2.set 15 v)
  | [], _, _, _, _ => rfl
  | k :: ks, x, a, v, h => by
    unfold Arm.loadAll
    show (match peek a.mem x.toNat 4 with
      | .ok u => ((a.set 15 v).set k (w32 u)).loadAll ks (x + 4#32)
      | .error e => (.error e, a.set 15 v)) = _
    cases peek a.mem x.toNat 4 with
    | error e => rfl
    | ok u =>
      simp only
      rw [set_set15 _ (by have := h k List.mem_cons_self; omega)]
      exact loadAll_set15 ks _ _ _ fun j hj => h j (List.mem_cons_of_mem _ hj)

theorem loadRegs_set15 {r : BitVec 16} (h15 : r.getLsbD 15 = false) (size : Nat) (x : Word) (a b : Arm) (v : Word)
    (h : a.loadRegs size r x = (.ok (), b)) :
    (a.set 15 v).loadRegs size r x = (.ok (), b.set 15 (v + BitVec.ofNat 32 size)) := by
  unfold Arm.loadRegs at h ⊢
  rw [loadAll_set15 _ _ _ _ fun k hk => by have := low15_lt k hk; omega]
  generalize a.loadAll (low15 r) x = p at h
  obtain ⟨p1, p2⟩ := p
  cases p1 with
  | error e => cases h
  | ok y =>
    simp only at h ⊢
    unfold Arm.loadPc at h ⊢
    rw [h15, if_neg (by decide)] at h
    rw [h15, if_neg (by decide), next_set15]
    cases h
    rfl

theorem listed15 {r : BitVec 16} (h : (15 : Int) ∉ (listed r).map Int.ofNat) : r.getLsbD 15 = false := by
  cases hr : r.getLsbD 15 with
  | false => rfl
  | true => exact absurd (List.mem_map.2 ⟨15, List.mem_filter.2 ⟨List.mem_range.2 (by decide), hr⟩, rfl⟩) h

/-- Executing with another PC does the same, and goes on from there. -/
theorem effect_set15 {act : Act} (hs : act.Straight) {size : Nat} {a b : Arm} (h : act.effect size a = (.ok (), b)) (v : Word) :
    act.effect size (a.set 15 v) = (.ok (), b.set 15 (v + BitVec.ofNat 32 size)) := by
  obtain ⟨hu, hr, ht⟩ := hs
  have hd : ∀ {d : Nat} {l : List Int}, 15 ∉ (d : Int) :: l → (d : Int) ≠ 15 := fun h e => h (e ▸ List.mem_cons_self)
  have htl : ∀ {d : Int} {l : List Int}, 15 ∉ d :: l → 15 ∉ l := fun h e => h (List.mem_cons_of_mem _ e)
  have hop : ∀ {d : Nat} {on : Bool} {r : Word} {c o : Option Bool}, (d : Int) ≠ 15 →
      (((a.set 15 v).set d r).flags on r c o).next size = (((a.set d r).flags on r c o).next size).set 15 (v + BitVec.ofNat 32 size) := by
    intro d on r c o hd
    rw [set_set15 _ hd, flags_set15, next_set15]
  have hw : ∀ {d : Nat} {r : Word}, (d : Int) ≠ 15 →
      (a.set 15 v).afterWrite size d r = (a.afterWrite size d r).set 15 (v + BitVec.ofNat 32 size) := by
    intro d r hd
    unfold Arm.afterWrite
    rw [set_set15 _ hd, next_set15]
  cases act with
  | addSub sub carry flags d n src =>
    cases h
    simp only [Act.effect, set15_other a v (hd hr), src_set15 (htl hr), flag_set15]
    exact congrArg (Prod.mk _) (hop (hd ht))
  | rsb flags d n imm =>
    cases h
    simp only [Act.effect, set15_other a v (hd hr)]
    exact congrArg (Prod.mk _) (hop (hd ht))
  | logic f flags d n m =>
    cases h
    simp only [Act.effect, set15_other a v (hd hr), set15_other a v (hd (htl hr))]
    exact congrArg (Prod.mk _) (hop (hd ht))
  | bic flags d n m =>
    cases h
    simp only [Act.effect, set15_other a v (hd hr), set15_other a v (hd (htl hr))]
    exact congrArg (Prod.mk _) (hop (hd ht))
  | shiftImm t flags d m k =>
    cases h
    simp only [Act.effect, set15_other a v (hd hr), flag_set15]
    exact congrArg (Prod.mk _) (hop (hd ht))
  | shiftReg t flags d n m =>
    cases h
    simp only [Act.effect, set15_other a v (hd hr), set15_other a v (hd (htl hr)), flag_set15]
    exact congrArg (Prod.mk _) (hop (hd ht))
  | mul flags d n m =>
    cases h
    simp only [Act.effect, set15_other a v (hd hr), set15_other a v (hd (htl hr))]
    exact congrArg (Prod.mk _) (hop (hd ht))
  | extend sgn width rotation d m =>
    cases h
    simp only [Act.effect, set15_other a v (hd hr)]
    exact congrArg (Prod.mk _) (hw (hd ht))
  | rev kind d m =>
    cases h
    simp only [Act.effect, set15_other a v (hd hr)]
    exact congrArg (Prod.mk _) (hw (hd ht))
  | mov neg flags d src c =>
    cases h
    simp only [Act.effect, src_set15 hr]
    exact congrArg (Prod.mk _) (hop (hd ht))
  | cmp sub n src =>
    cases h
    simp only [Act.effect, set15_other a v (hd hr), src_set15 (htl hr)]
    rw [flags_set15, next_set15]
  | tst n m sh =>
    cases h
    simp only [Act.effect, set15_other a v (hd hr), set15_other a v (hd (htl hr)), flag_set15]
    rw [flags_set15, next_set15]
  | load sz sgn t n off =>
    simp only [Act.effect, set15_other a v (hd hr), off_set15 (htl hr)] at h ⊢
    unfold Arm.loadTo at h ⊢
    show (match peek a.mem _ _ with
      | .ok u => (Except.ok (), (a.set 15 v).afterWrite size t (extended sgn sz u))
      | .error e => (.error e, a.set 15 v)) = _
    cases hp : peek a.mem (a.reg n + off.got a).toNat (sz / 8) with
    | error e => rw [hp] at h; cases h
    | ok u =>
      rw [hp] at h
      cases h
      simp only
      rw [hw (hd ht)]
  | store sz t n off =>
    cases h
    simp only [Act.effect, set15_other a v (hd hr), set15_other a v (hd (htl hr)), off_set15 (htl (htl hr))]
    exact congrArg (Prod.mk _) (next_set15 (a.poke _ _ _) v size)
  | push r =>
    cases h
    simp only [Act.effect]
    rw [set15_other a v (by decide), set_set15 _ (by decide), storeAll_set15 _ _ _ _ fun k hk => by have := low15_lt k hk; omega, next_set15]
  | pop r =>
    simp only [Act.effect] at h ⊢
    rw [set15_other a v (by decide), set_set15 _ (by decide)]
    exact loadRegs_set15 (listed15 (htl ht)) _ _ _ _ _ h
  | ldm n wback r =>
    simp only [Act.effect, Arm.ldm] at h ⊢
    rw [set15_other a v (hd hr)]
    have h15 := listed15 fun e => ht (List.mem_append_right _ e)
    cases hl : a.loadRegs size r (a.reg n) with
    | mk p1 p2 =>
      rw [hl] at h
      cases p1 with
      | error e => cases h
      | ok u =>
        cases h
        rw [loadRegs_set15 h15 _ _ _ _ v hl]
        simp only
        unfold Arm.writeBack
        split
        · rw [set15_other _ _ (hd hr), set_set15 _ (hd hr)]
        · rfl
  | stm n wback r =>
    cases h
    simp only [Act.effect, Arm.stm]
    rw [set15_other a v (hd hr), storeAll_set15 _ _ _ _ fun k hk => by have := low15_lt k hk; omega]
    cases wback with
    | false => simp only [Bool.false_eq_true, if_false]; rw [next_set15]
    | true => simp only [if_true]; rw [set_set15 _ (hd hr), next_set15]
  | cps enable pri fault =>
    cases h
    simp only [Act.effect, Arm.cps]
    cases pri <;> cases fault <;> simp only [Bool.false_eq_true, if_false, if_true]
    · rw [next_set15]
    · rw [set_set15 _ (by decide), next_set15]
    · rw [set_set15 _ (by decide), next_set15]
    · rw [set_set15 _ (by decide), set_set15 _ (by decide), next_set15]
  | mrs d sysm =>
    simp only [Act.effect, Arm.mrs, special_set15] at h ⊢
    cases hp : a.special sysm.toNat with
    | error e => rw [hp] at h; cases h
    | ok u =>
      rw [hp] at h
      cases h
      simp only
      rw [hw (hd ht)]
  | msr n mask sysm => cases h; exact congrArg (Prod.mk _) (next_set15 a v size)
  | plain => cases h; exact congrArg (Prod.mk _) (next_set15 a v size)
  | _ => exact absurd trivial hu

end Verif
