import Verif.Lemmas.Commute
import Verif.Props.C59to62
import Verif.Props.C70
import Verif.Props.C81

/-!
# C100: bit 0 of PC does not matter
-/

namespace Verif
open Console Typed BS Thumb C70

namespace C100

/-- The words are the same except for bit 0. -/
def Near (u v : Word) : Prop := u.toNat / 2 = v.toNat / 2

theorem near_add {u v : Word} (h : Near u v) {k : Word} (hk : k.toNat % 2 = 0) : Near (u + k) (v + k) := by
  unfold Near at *
  have := u.isLt
  have := v.isLt
  have := k.isLt
  rw [BitVec.toNat_add, BitVec.toNat_add]
  omega

theorem near_align {u v : Word} (h : Near u v) : align4 (u + 4#32) = align4 (v + 4#32) := by
  have h := near_add h (k := 4#32) rfl
  unfold Near at h
  apply BitVec.eq_of_toNat_eq
  have e : ∀ x : Word, (align4 x).toNat = x.toNat / 4 * 4 := C81.align_nat
  rw [e, e]
  omega

theorem near_or {u v : Word} (h : Near u v) : u ||| 1#32 = v ||| 1#32 := by
  have e : ∀ x : Word, x ||| 1#32 = (x &&& ~~~1#32) ||| 1#32 := fun x => by
    apply BitVec.eq_of_getLsbD_eq
    intro k hk
    simp only [BitVec.getLsbD_or, BitVec.getLsbD_and, BitVec.getLsbD_not]
    cases x.getLsbD k <;> cases (1#32).getLsbD k <;> simp [hk]
  rw [e u, e v]
  congr 1
  apply BitVec.eq_of_toNat_eq
  rw [C81.clear_nat, C81.clear_nat, h]

/-- The offset of a direct branch is even. -/
def EvenOffset : Act → Prop
  | .branch _ offset => offset.toNat % 2 = 0
  | .bl offset => offset.toNat % 2 = 0
  | _ => True

/-- What goes on after something that has nothing to do with PC. -/
theorem close {a : Arm} (F : Arm → Arm) (hF : ∀ v, F (a.set 15 v) = (F a).set 15 v) {size : Nat} (h2 : size % 2 = 0) {v : Word}
    (hv : Near v (a.reg 15)) (r : PyRes Unit) :
    ∃ v', (r, (F (a.set 15 v)).next size) = (r, ((F a).next size).set 15 v') ∧ Near v' (((F a).next size).reg 15) := by
  have h15 : (F a).reg 15 = a.reg 15 := by
    have := congrArg (fun b : Arm => b.reg 15) (hF (a.reg 15))
    simpa only [set15_self, set15_reg] using this
  refine ⟨v + BitVec.ofNat 32 size, by rw [hF, next_set15], ?_⟩
  show Near _ ((F a).reg 15 + BitVec.ofNat 32 size)
  rw [h15]
  refine near_add hv ?_
  rw [BitVec.toNat_ofNat]
  omega

theorem stay {a : Arm} {v : Word} (hv : Near v (a.reg 15)) (r : PyRes Unit) : ∃ v', (r, a.set 15 v) = (r, a.set 15 v') ∧ Near v' (a.reg 15) :=
  ⟨v, rfl, hv⟩

theorem jump (a : Arm) {v x y : Word} (h : Near x y) (r : PyRes Unit) :
    ∃ v', (r, (a.set 15 v).set 15 x) = (r, (a.set 15 y).set 15 v') ∧ Near v' ((a.set 15 y).reg 15) :=
  ⟨x, by rw [set15_set15, set15_set15], h⟩

theorem loadRegs_near {size : Nat} (h2 : size % 2 = 0) (r : BitVec 16) (x : Word) (a : Arm) {v : Word} (hv : Near v (a.reg 15)) :
    ∃ v', (a.set 15 v).loadRegs size r x = ((a.loadRegs size r x).1, (a.loadRegs size r x).2.set 15 v') ∧ Near v' ((a.loadRegs size r x).2.reg 15) := by
  have hl : ∀ v, (a.set 15 v).loadAll (low15 r) x = ((a.loadAll (low15 r) x).1, (a.loadAll (low15 r) x).2.set 15 v) := fun v =>
    loadAll_set15 _ _ _ _ fun k hk => by have := low15_lt k hk; omega
  have h15 : (a.loadAll (low15 r) x).2.reg 15 = a.reg 15 := by
    have := congrArg (fun p : PyRes Word × Arm => p.2.reg 15) (hl (a.reg 15))
    simpa only [set15_self, set15_reg] using this
  unfold Arm.loadRegs
  rw [hl v]
  generalize a.loadAll (low15 r) x = p at h15
  obtain ⟨p1, b⟩ := p
  simp only at h15
  cases p1 with
  | error e => exact stay (h15 ▸ hv) _
  | ok y =>
    simp only
    unfold Arm.loadPc
    have hm : (b.set 15 v).mem = b.mem := rfl
    rw [hm]
    cases r.getLsbD 15 with
    | false => exact close (a := b) id (fun _ => rfl) h2 (h15 ▸ hv) _
    | true =>
      simp only [if_true]
      cases peek b.mem y.toNat 4 with
      | error e => exact stay (h15 ▸ hv) _
      | ok u => exact jump b (x := w32 u) rfl _

/-- Bit 0 of PC does not matter for an action that does not name PC. -/
theorem effect_near {act : Act} (hn : act.NoPc) (he : EvenOffset act) {size : Nat} (h2 : size % 2 = 0) (a : Arm) {v : Word} (hv : Near v (a.reg 15)) :
    ∃ v', act.effect size (a.set 15 v) = ((act.effect size a).1, (act.effect size a).2.set 15 v') ∧ Near v' ((act.effect size a).2.reg 15) := by
  have other : ∀ {k : Nat}, k < 15 → (a.set 15 v).reg k = a.reg k := fun h => set15_other a v (by omega)
  have src' : ∀ {src : Src}, src.NoPc → src.got (a.set 15 v) = src.got a := fun {src} h => by
    cases src with
    | reg m => exact other h
    | imm x => rfl
  have off' : ∀ {off : Off}, off.NoPc → off.got (a.set 15 v) = off.got a := fun {off} h => by
    cases off with
    | reg m sh =>
      refine off_set15 ?_ a v
      intro e
      have : (15 : Int) = m := by simpa [Off.regs] using e
      have h : m < 15 := h
      omega
    | imm x => rfl
  have hop : ∀ {d : Nat} (on : Bool) (r : Word) (c o : Option Bool), d < 15 → ∃ v', ((.ok () : PyRes Unit), (((a.set 15 v).set d r).flags on r c o).next size) =
      (.ok (), (((a.set d r).flags on r c o).next size).set 15 v') ∧ Near v' ((((a.set d r).flags on r c o).next size).reg 15) :=
    fun {d} on r c o hd => close (fun b => (b.set d r).flags on r c o) (fun v => by rw [set_set15 _ (by omega), flags_set15]) h2 hv _
  have hw : ∀ {d : Nat} (r : Word), d < 15 → ∃ v', ((.ok () : PyRes Unit), (a.set 15 v).afterWrite size d r) =
      (.ok (), (a.afterWrite size d r).set 15 v') ∧ Near v' ((a.afterWrite size d r).reg 15) :=
    fun {d} r hd => close (fun b => b.set d r) (fun v => set_set15 _ (by omega) _ _) h2 hv _
  have hload : ∀ {t : Nat} (sz : Nat) (sgn : Bool) (x : Word), t < 15 → ∃ v', (a.set 15 v).loadTo size sz sgn t x =
      ((a.loadTo size sz sgn t x).1, (a.loadTo size sz sgn t x).2.set 15 v') ∧ Near v' ((a.loadTo size sz sgn t x).2.reg 15) := by
    intro t sz sgn x ht
    unfold Arm.loadTo
    have hm : (a.set 15 v).mem = a.mem := rfl
    rw [hm]
    cases peek a.mem x.toNat (sz / 8) with
    | error e => exact stay hv _
    | ok u => exact hw _ ht
  cases act with
  | addSub sub carry flags d n src =>
    simp only [Act.effect, other hn.2.1, src' hn.2.2, flag_set15]
    exact hop _ _ _ _ hn.1
  | rsb flags d n imm =>
    simp only [Act.effect, other hn.2]
    exact hop _ _ _ _ hn.1
  | logic f flags d n m =>
    simp only [Act.effect, other hn.2.1, other hn.2.2]
    exact hop _ _ _ _ hn.1
  | bic flags d n m =>
    simp only [Act.effect, other hn.2.1, other hn.2.2]
    exact hop _ _ _ _ hn.1
  | shiftImm t flags d m k =>
    simp only [Act.effect, other hn.2, flag_set15]
    exact hop _ _ _ _ hn.1
  | shiftReg t flags d n m =>
    simp only [Act.effect, other hn.2.1, other hn.2.2, flag_set15]
    exact hop _ _ _ _ hn.1
  | mul flags d n m =>
    simp only [Act.effect, other hn.2.1, other hn.2.2]
    exact hop _ _ _ _ hn.1
  | adr add d imm =>
    simp only [Act.effect, set15_reg, near_align hv]
    exact hw _ hn
  | extend sgn width rotation d m =>
    simp only [Act.effect, other hn.2]
    exact hw _ hn.1
  | rev kind d m =>
    simp only [Act.effect, other hn.2]
    exact hw _ hn.1
  | mov neg flags d src c =>
    simp only [Act.effect, src' hn.2]
    exact hop _ _ _ _ hn.1
  | mvnShift flags d m sh => exact stay hv _
  | cmp sub n src =>
    simp only [Act.effect, other hn.1, src' hn.2]
    exact close (fun b => b.flags true _ _ _) (fun v => flags_set15 _ _ _ _ _ _) h2 hv _
  | tst n m sh =>
    simp only [Act.effect, other hn.1, other hn.2, flag_set15]
    exact close (fun b => b.flags true _ _ _) (fun v => flags_set15 _ _ _ _ _ _) h2 hv _
  | branch cond offset =>
    simp only [Act.effect, set15_reg]
    have hh : (a.set 15 v).holds cond = a.holds cond := rfl
    rw [hh]
    cases a.holds cond with
    | true => exact jump a (near_add (near_add hv rfl) he) _
    | false => exact close (a := a) id (fun _ => rfl) h2 hv _
  | bl offset =>
    simp only [Act.effect, set15_reg]
    rw [near_or (near_add hv rfl), set_set15 _ (by decide)]
    exact jump _ (near_add (near_add hv rfl) he) _
  | blx m =>
    simp only [Act.effect, set15_reg]
    have h4 : Near (v + 4#32 - 2#32) (a.reg 15 + 4#32 - 2#32) := by
      rw [BitVec.sub_eq_add_neg, BitVec.sub_eq_add_neg]
      exact near_add (near_add hv rfl) (by decide)
    have hm : m < 15 := hn
    rw [near_or h4, set_set15 _ (by decide), set15_other _ _ (by omega)]
    exact jump _ rfl _
  | bx m =>
    have hm : m < 15 := hn
    simp only [Act.effect, other hm]
    exact jump a rfl _
  | load sz sgn t n off =>
    simp only [Act.effect, other hn.2.1, off' hn.2.2]
    exact hload _ _ _ hn.1
  | store sz t n off =>
    simp only [Act.effect, other hn.1, other hn.2.1, off' hn.2.2]
    exact close (fun b => b.poke _ _ _) (fun _ => rfl) h2 hv _
  | loadLit sz sgn add t imm =>
    simp only [Act.effect, set15_reg, near_align hv]
    exact hload _ _ _ hn
  | push r =>
    simp only [Act.effect]
    rw [set15_other a v (by decide)]
    exact close (fun b => (b.set 13 _).storeAll _ _) (fun v => by
      rw [set_set15 _ (by decide), storeAll_set15 _ _ _ _ fun k hk => by have := low15_lt k hk; omega]) h2 hv _
  | pop r =>
    simp only [Act.effect]
    rw [set15_other a v (by decide), set_set15 _ (by decide)]
    exact loadRegs_near h2 _ _ _ hv
  | ldm n wback r =>
    have hn : n < 15 := hn
    simp only [Act.effect, Arm.ldm, other hn]
    obtain ⟨v', e1, e2⟩ := loadRegs_near h2 r (a.reg n) a hv
    rw [e1]
    generalize a.loadRegs size r (a.reg n) = p at e2
    obtain ⟨p1, b⟩ := p
    cases p1 with
    | error e => exact ⟨v', rfl, e2⟩
    | ok u =>
      refine ⟨v', ?_, ?_⟩
      · simp only
        unfold Arm.writeBack
        split
        · rw [set15_other _ _ (by omega), set_set15 _ (by omega)]
        · rfl
      · simp only
        unfold Arm.writeBack
        split
        · rw [set_apart ⟨by omega, by omega, by omega⟩]
          exact e2
        · exact e2
  | stm n wback r =>
    have hn : n < 15 := hn
    simp only [Act.effect, Arm.stm, other hn]
    cases wback with
    | false => exact close (fun b => b.storeAll _ _) (fun v => storeAll_set15 _ _ _ _ fun k hk => by have := low15_lt k hk; omega) h2 hv _
    | true => exact close (fun b => (b.storeAll _ _).set n _) (fun v => by
        rw [storeAll_set15 _ _ _ _ fun k hk => by have := low15_lt k hk; omega, set_set15 _ (by omega)]) h2 hv _
  | cps enable pri fault =>
    simp only [Act.effect]
    refine close (fun b => b.cps enable pri fault) (fun v => ?_) h2 hv _
    unfold Arm.cps
    cases pri <;> cases fault <;> simp only [Bool.false_eq_true, if_false, if_true]
    · rw [set_set15 _ (by decide)]
    · rw [set_set15 _ (by decide)]
    · rw [set_set15 _ (by decide), set_set15 _ (by decide)]
  | mrs d sysm =>
    simp only [Act.effect, Arm.mrs, special_set15]
    cases a.special sysm.toNat with
    | error e => exact stay hv _
    | ok u => exact hw _ hn
  | msr n mask sysm => exact close (a := a) id (fun _ => rfl) h2 hv _
  | plain => exact close (a := a) id (fun _ => rfl) h2 hv _

theorem leaves_near {act : Act} (hn : act.NoPc) (a : Arm) (v : Word) (i : Instr) : act.leaves (a.set 15 v) i = act.leaves a i := by
  have src' : ∀ {src : Src}, src.NoPc → src.got (a.set 15 v) = src.got a := fun {src} h => by
    cases src with
    | reg m =>
      have h : m < 15 := h
      exact set15_other a v (by omega)
    | imm x => rfl
  cases act with
  | addSub sub carry flags d n src => simp only [Act.leaves, src' hn.2.2]
  | cmp sub n src => simp only [Act.leaves, src' hn.2]
  | _ => rfl

/-- Two machines that are the same except for bit 0 of PC. -/
structure Twin (s t : Machine) : Prop where
  regs : ∀ k, k ≠ some 15 → s.regs k = t.regs k
  pc : ∃ x y : Int, s.regs (some 15) = some x ∧ t.regs (some 15) = some y ∧ x / 2 = y / 2
  mem : s.mem = t.mem

theorem twin_conc (a : Arm) {v : Word} (h : Near v (a.reg 15)) : Twin a.conc (a.set 15 v).conc := by
  refine ⟨fun k hk => ?_, ⟨_, _, conc_core a (by decide), conc_core _ (by decide), ?_⟩, rfl⟩
  · cases k with
    | none => rfl
    | some k =>
      show (if k ∈ coreIndices then some ((a.reg k).toNat : Int) else a.extra (some k)) =
        if k ∈ coreIndices then some (((a.set 15 v).reg k).toNat : Int) else a.extra (some k)
      rw [set15_other a v (fun e => hk (congrArg some e))]
  · rw [set15_reg]
    unfold Near at h
    omega

theorem Twin.arm {s t : Machine} (h : Twin s t) (hs : Regs32 s) : ∃ (a : Arm) (v : Word), s = a.conc ∧ t = (a.set 15 v).conc ∧ Near v (a.reg 15) := by
  obtain ⟨a, rfl⟩ := hs.arm
  obtain ⟨x, y, hx, hy, hxy⟩ := h.pc
  rw [conc_core a (by decide)] at hx
  cases hx
  have hlt := (a.reg 15).isLt
  obtain ⟨n, rfl⟩ : ∃ n : Nat, y = n := ⟨y.toNat, by omega⟩
  have hn : (BitVec.ofNat 32 n).toNat = n := by
    rw [BitVec.toNat_ofNat]
    omega
  refine ⟨a, BitVec.ofNat 32 n, rfl, ?_, ?_⟩
  · have e : ∀ s t : Machine, s.regs = t.regs → s.mem = t.mem → s = t := fun s t h1 h2 => by
      cases s; cases t; cases h1; cases h2; rfl
    refine e _ _ (funext fun k => ?_) h.mem.symm
    by_cases hk : k = some 15
    · subst hk
      rw [hy, conc_core _ (by decide), set15_reg, hn]
    · rw [← h.regs k hk]
      exact (twin_conc a (v := BitVec.ofNat 32 n) (by unfold Near; omega)).regs k hk
  · unfold Near
    omega

/-- What the action of an object must be like: it does not name PC as an operand or a
destination (lists of registers may), and a direct branch goes forward. -/
structure Blind (i : Instr) (act : Act) : Prop where
  of : act.Of i
  valid : act.Valid
  noPc : act.NoPc
  even : EvenOffset act
  size : i.size % 2 = 0

/-- **C100.** Executing an instruction that does not name PC in two states that are the same
except for bit 0 of PC: the result (or the exception) is the same, and so are the states
afterwards, again except for bit 0 of PC. Missing from the full claim: instructions that
name PC, and branches backwards (see `full_claim_false`). -/
theorem execute_partial {i : Instr} {act : Act} (h : Blind i act) {s t : Machine} (hs : Regs32 s) (hst : Twin s t) :
    (i.eval s).1 = (i.eval t).1 ∧ Twin (i.eval s).2 (i.eval t).2 := by
  obtain ⟨a, v, rfl, rfl, hv⟩ := hst.arm hs
  obtain ⟨v', e1, e2⟩ := effect_near h.noPc h.even h.size a hv
  rw [eval_exact h.of h.valid, eval_exact h.of h.valid, e1, leaves_near h.noPc]
  generalize act.effect i.size a = p at e2
  obtain ⟨r, b⟩ := p
  cases r with
  | ok _ => exact ⟨rfl, twin_conc b e2⟩
  | error e => exact ⟨rfl, twin_conc b e2⟩

theorem Twin.regs32 {s t : Machine} (h : Twin s t) (hs : Regs32 s) : Regs32 t := by
  obtain ⟨a, v, -, rfl, -⟩ := h.arm hs
  exact fun k hk => ⟨_, conc_core _ hk, by omega, by have := ((a.set 15 v).reg k).isLt; omega⟩

theorem regs32_after {i : Instr} {act : Act} (h : Blind i act) {s : Machine} (hs : Regs32 s) : Regs32 (i.eval s).2 := by
  obtain ⟨a, rfl⟩ := hs.arm
  rw [eval_exact h.of h.valid]
  generalize act.effect i.size a = p
  obtain ⟨r, b⟩ := p
  have : Regs32 b.conc := fun k hk => ⟨_, conc_core _ hk, by omega, by have := (b.reg k).isLt; omega⟩
  cases r <;> exact this

/-- **C100.** A program of such instructions, executed one after the other. -/
theorem program_partial : ∀ {is : List Instr}, (∀ i ∈ is, ∃ act, Blind i act) → ∀ {s t : Machine}, Regs32 s → Twin s t →
    (executeAll is s).1 = (executeAll is t).1 ∧ Twin (executeAll is s).2 (executeAll is t).2
  | [], _, _, _, _, hst => ⟨rfl, hst⟩
  | i :: is, h, s, t, hs, hst => by
    obtain ⟨act, hb⟩ := h i List.mem_cons_self
    obtain ⟨h1, h2⟩ := execute_partial hb hs hst
    have h3 := regs32_after hb hs
    unfold executeAll
    show (CpuM.bind i.eval (fun _ => executeAll is) s).1 = (CpuM.bind i.eval (fun _ => executeAll is) t).1 ∧
      Twin (CpuM.bind i.eval (fun _ => executeAll is) s).2 (CpuM.bind i.eval (fun _ => executeAll is) t).2
    unfold CpuM.bind
    cases e1 : i.eval s with
    | mk r1 s1 =>
      cases e2 : i.eval t with
      | mk r2 t1 =>
        rw [e1, e2] at h1 h2
        rw [e1] at h3
        simp only at h1 h2 h3
        subst h1
        cases r1 with
        | error e => exact ⟨rfl, h2⟩
        | ok j => exact program_partial (fun i hi => h i (List.mem_cons_of_mem _ hi)) h3 h2

/-- The step command finds an instruction that does not name PC, or none. -/
structure Quiet (w : World) : Prop where
  regs : Regs32 w.cpu
  here : ∀ d i x, w.cpu.regs (some 15) = some x → readMemoryBlock (x / 2 * 2) 4 w.cpu = (.ok (some d), w.cpu) →
    (trees.decode d (x / 2 * 2)).1 = .ok i → (∀ b ∈ d, b < 256) ∧ ∃ act, Blind i act

/-- The same outcome, the same output, and machines that differ in bit 0 of PC only. -/
structure Alike (p q : Except Exn Unit × World) : Prop where
  result : p.1 = q.1
  out : p.2.out = q.2.out
  cpu : Twin p.2.cpu q.2.cpu

theorem catching_alike {x : ConM Unit} {w w' : World} (h : Alike (x w) (x w')) : Alike (catching x w) (catching x w') := by
  unfold catching
  cases e1 : x w with
  | mk r1 w1 =>
    cases e2 : x w' with
    | mk r2 w2 =>
      rw [e1, e2] at h
      obtain ⟨h1, h2, h3⟩ := h
      simp only at h1 h2 h3
      subst h1
      cases r1 with
      | ok _ => exact ⟨rfl, h2, h3⟩
      | error e =>
        cases e with
        | toolExit => exact ⟨rfl, h2, h3⟩
        | systemExit => exact ⟨rfl, h2, h3⟩
        | _ =>
          refine ⟨rfl, ?_, h3⟩
          exact congrArg (· ++ _) h2

theorem evenPc_at {w : World} (h : Regs32 w.cpu) {x : Int} (hx : w.cpu.regs (some 15) = some x) : evenPc w = (.ok (x / 2 * 2), w) := by
  obtain ⟨a, ha⟩ := h.arm
  have hs : Shows w.cpu a.core := by
    rw [ha]
    exact shows_core a
  rw [evenPc_run hs]
  rw [ha, conc_core a (by decide)] at hx
  cases hx
  congr 2

theorem block_alike {s t : Machine} (h : s.mem = t.mem) (x : Int) (n : Nat) :
    ∃ r, readMemoryBlock x n s = (.ok r, s) ∧ readMemoryBlock x n t = (.ok r, t) := by
  unfold readMemoryBlock
  rw [h]
  cases findMem t.mem x with
  | none => exact ⟨none, rfl, rfl⟩
  | some p => exact ⟨_, rfl, rfl⟩

theorem first_decodes {d : List Nat} {x : Int} {i : Instr} {is : List Instr} (h : disasm trees d x = (i :: is, none)) : (trees.decode d x).1 = .ok i := by
  rw [disasm_dis trees C40.trees_self] at h
  rw [dis_eq] at h
  unfold decodeAt at h
  split at h
  · cases h
  · split at h
    · split at h <;> cases h
    · cases h
    · next h' =>
      rw [h']
      have := (Prod.mk.inj h).1
      simp only [List.cons.injEq] at this
      rw [this.1]

theorem body_alike {w w' : World} (hq : Quiet w) (ho : w.out = w'.out) (ht : Twin w.cpu w'.cpu) {x : Int} (hx : w.cpu.regs (some 15) = some x) :
    Alike (stepBody (x / 2 * 2) w) (stepBody (x / 2 * 2) w') := by
  obtain ⟨r, h1, h2⟩ := block_alike ht.mem (x / 2 * 2) 4
  cases r with
  | none =>
    unfold stepBody
    rw [ConM.bind_ok (cpu_ok h1), ConM.bind_ok (cpu_ok h2)]
    exact ⟨rfl, ho, ht⟩
  | some d =>
    rw [stepBody_some h1, stepBody_some h2]
    cases hd : disasm trees d (x / 2 * 2) with
    | mk is e =>
      cases e with
      | some e => exact ⟨rfl, ho, ht⟩
      | none =>
        cases is with
        | nil => exact ⟨rfl, congrArg (· ++ _) ho, ht⟩
        | cons i is =>
          simp only
          have hdec := first_decodes hd
          obtain ⟨hb, act, hblind⟩ := hq.here d i x hx h1 hdec
          obtain ⟨words, rest, i', hf, -⟩ := C64.always d hb _ i hdec
          rw [show_and_execute hf, show_and_execute hf]
          obtain ⟨os, m, rfl⟩ := format_fields hf
          have key : (Instr.eval { i with operands := os, mask := m } w.cpu).1 = (Instr.eval { i with operands := os, mask := m } w'.cpu).1 ∧
              Twin (Instr.eval { i with operands := os, mask := m } w.cpu).2 (Instr.eval { i with operands := os, mask := m } w'.cpu).2 := by
            obtain ⟨a, v, ea, eb, hv⟩ := ht.arm hq.regs
            obtain ⟨v', e1, e2⟩ := effect_near hblind.noPc hblind.even hblind.size a hv
            rw [ea, eb, eval_fields hblind.of hblind.valid, eval_fields hblind.of hblind.valid, e1, leaves_near hblind.noPc]
            generalize act.effect i.size a = p at e2
            obtain ⟨r, b⟩ := p
            cases r with
            | ok _ => exact ⟨rfl, twin_conc b e2⟩
            | error e => exact ⟨rfl, twin_conc b e2⟩
          cases e1 : Instr.eval { i with operands := os, mask := m } w.cpu with
          | mk r1 s1 =>
            cases e2 : Instr.eval { i with operands := os, mask := m } w'.cpu with
            | mk r2 s2 =>
              rw [e1, e2] at key
              obtain ⟨k1, k2⟩ := key
              simp only at k1 k2
              subst k1
              cases r1 with
              | ok _ => exact ⟨rfl, congrArg (· ++ _) ho, k2⟩
              | error e => exact ⟨rfl, congrArg (· ++ _) ho, k2⟩

/-- **C100.** The step command at an instruction that does not name PC: two consoles whose
machines differ in bit 0 of PC only print the same and still differ in bit 0 of PC only. -/
theorem step_partial (python : Python) {cmd name : Str} {args : List Str} (hname : name ∈ stepNames) (hcmd : Says cmd name args) {w w' : World}
    (hq : Quiet w) (ho : w.out = w'.out) (ht : Twin w.cpu w'.cpu) : Alike (processCommand python cmd w) (processCommand python cmd w') := by
  rw [C67.command_runs python hcmd (step_handler hname)]
  apply catching_alike
  show Alike (handleStep w) (handleStep w')
  obtain ⟨x, y, hx, hy, hxy⟩ := ht.pc
  unfold handleStep
  rw [ConM.bind_ok (evenPc_at hq.regs hx), ConM.bind_ok (evenPc_at (ht.regs32 hq.regs) hy), ← hxy]
  have h := body_alike hq ho ht hx
  unfold stepTry
  cases e1 : stepBody (x / 2 * 2) w with
  | mk r1 w1 =>
    cases e2 : stepBody (x / 2 * 2) w' with
    | mk r2 w2 =>
      rw [e1, e2] at h
      obtain ⟨h1, h2, h3⟩ := h
      simp only at h1 h2 h3
      subst h1
      by_cases he : r1 = .error (.py .undefinedInstruction)
      · subst he
        exact ⟨rfl, congrArg (· ++ _) h2, h3⟩
      · split
        · next h => cases h; exact absurd rfl he
        · split
          · next h => cases h; exact absurd rfl he
          · exact ⟨rfl, h2, h3⟩

/-- Every step of these commands is at an instruction that does not name PC. -/
def AllQuiet (python : Python) : List Str → World → Prop
  | [], _ => True
  | cmd :: t, w => Quiet w ∧ AllQuiet python t (processCommand python cmd w).2

/-- **C100.** So any number of steps: a function that returns with POP to an odd address, as
LR always is, goes on as if the address were even. -/
theorem steps_partial (python : Python) : ∀ {cmds : List Str}, (∀ cmd ∈ cmds, ∃ name ∈ stepNames, ∃ args, Says cmd name args) → ∀ {w w' : World},
    AllQuiet python cmds w → w.out = w'.out → Twin w.cpu w'.cpu → Alike (processCommands python cmds w) (processCommands python cmds w')
  | [], _, _, _, _, ho, ht => ⟨rfl, ho, ht⟩
  | cmd :: t, hc, w, w', hq, ho, ht => by
    obtain ⟨name, hname, args, hcmd⟩ := hc cmd List.mem_cons_self
    have h := step_partial python hname hcmd hq.1 ho ht
    have hn := hq.2
    unfold processCommands
    show Alike (ConM.bind (processCommand python cmd) (fun _ => processCommands python t) w) (ConM.bind (processCommand python cmd) (fun _ => processCommands python t) w')
    unfold ConM.bind
    cases e1 : processCommand python cmd w with
    | mk r1 w1 =>
      cases e2 : processCommand python cmd w' with
      | mk r2 w2 =>
        rw [e1, e2] at h
        rw [e1] at hn
        obtain ⟨h1, h2, h3⟩ := h
        simp only at h1 h2 h3
        subst h1
        cases r1 with
        | error e => exact ⟨rfl, h2, h3⟩
        | ok _ => exact steps_partial python (fun c hc' => hc c (List.mem_cons_of_mem _ hc')) hn h2 h3

theorem signed_even {n : Nat} (hn : 0 < n) (i : Nat) : (Thumb.signed n (2 * i)).toNat % 2 = 0 := by
  have h : (Thumb.signed n (2 * i)).getLsbD 0 = false := by
    unfold Thumb.signed
    rw [BitVec.getLsbD_signExtend, if_pos hn, BitVec.getLsbD_ofNat]
    simp
  unfold BitVec.getLsbD at h
  rw [Nat.testBit_zero] at h
  have := of_decide_eq_false h
  omega

theorem bl_even (s j k i : Nat) : (blOffset s j k i).toNat % 2 = 0 := by
  unfold blOffset
  generalize (if j = s then 1 else 0) = x
  generalize (if k = s then 1 else 0) = y
  rw [show s * 2 ^ 24 + x * 2 ^ 23 + y * 2 ^ 22 + i * 2 = 2 * (s * 2 ^ 23 + x * 2 ^ 22 + y * 2 ^ 21 + i) by omega]
  exact signed_even (by decide) _

theorem even_offsets : ∀ e ∈ encodings, ∀ w, EvenOffset (e.act (field e.pat w)) := by
  simp only [encodings, List.forall_mem_cons]
  repeat' refine And.intro ?_ ?_
  all_goals first
    | exact fun w => trivial
    | exact fun c hc => absurd hc (List.not_mem_nil)
    | skip
  · exact fun w => signed_even (n := 9) (by decide) (field Thumb.bCond.pat w 'i')
  · exact fun w => signed_even (n := 12) (by decide) (field Thumb.b.pat w 'i')
  · exact fun w => bl_even _ _ _ _

/-- The objects of the encodings that do not name PC. -/
theorem blind {e : Enc} (he : e ∈ encodings) {w : Nat} (h : e.Is w) (hx : ¬ Wrong e (field e.pat w)) (hp : (e.act (field e.pat w)).NoPc) {rest : List Nat}
    (hr : ∀ b ∈ rest, b < 256) (a : Int) : ∃ i, (trees.decode (C38.bytesOf e w ++ rest) a).1 = .ok i ∧ Blind i (e.act (field e.pat w)) := by
  have heven := even_offsets e he w
  have hlen := C73.lengths e he
  obtain ⟨k, hk, rfl⟩ := C38.caseOf he
  obtain ⟨ha, hn⟩ := (agrees k hk w h.2.1 h.2.2).1 hx
  obtain ⟨i, h1, h2, h3⟩ := case_decodes hk h hn rest hr a
  have hv := sound k hk w
  rw [ha] at h2 hv
  exact ⟨i, h1, h2, hv, hp, heven, by rcases hlen with q | q <;> rw [h3, q]⟩

/-- **C100.** A branch backwards is different: it goes to different places. -/
theorem full_claim_false {w : Nat} (h : Thumb.b.Is w) (hback : 1024 ≤ field Thumb.b.pat w 'i') {s t : Machine} (hs : Regs32 s) (ht : Twin s t) {x : Int}
    (hx : s.regs (some 15) = some x) (heven : x % 2 = 0) (hy : t.regs (some 15) = some (x + 1)) :
    ∃ i, (trees.decode (C38.bytesOf Thumb.b w) 0).1 = .ok i ∧ ¬ Twin (i.eval s).2 (i.eval t).2 := by
  obtain ⟨a, v, rfl, rfl, hv⟩ := ht.arm hs
  obtain ⟨i, h1, i1, s1, h2, h3⟩ := C50.b_target w h [] (by simp) 0 (shows_core a)
  obtain ⟨j, g1, j1, t1, g2, g3⟩ := C50.b_target w h [] (by simp) 0 (shows_core (a.set 15 v))
  rw [h1] at g1
  cases g1
  rw [List.append_nil] at h1
  refine ⟨i, h1, ?_⟩
  rw [h2, g2]
  rintro ⟨-, ⟨p, q, hp, hq, hpq⟩, -⟩
  simp only at hp hq
  have set15 : ∀ (c : Core) (u : Word), (c.set 15 u).reg 15 = u := fun c u => by
    rw [core_reg_set, if_pos (.inl rfl)]
    exact keepBits_plain (d := 15) (by decide) (by decide) _
  rw [h3.1 15 (by decide), set15] at hp
  rw [g3.1 15 (by decide), set15] at hq
  cases hp
  cases hq
  rw [conc_core _ (by decide)] at hx hy
  cases hx
  rw [set15_reg] at hy
  have hy := Option.some.inj hy
  have hodd : (C50.used (signed 12 (2 * field Thumb.b.pat w 'i'))).toNat % 2 = 1 := by
    have he := signed_even (n := 12) (by decide) (field Thumb.b.pat w 'i')
    have hlt := C72.field_lt Thumb.b.pat w 'i' 11 (by decide)
    have ho := (C50.offsets 0 (by decide) (field Thumb.b.pat w 'i') hlt).2
    rw [if_neg (by omega)] at ho
    have hneg : (signed 12 (2 * field Thumb.b.pat w 'i')).msb = true := by
      rw [BitVec.msb_eq_toInt]
      exact decide_eq_true (by omega)
    unfold C50.used
    rw [if_pos hneg, BitVec.toNat_not]
    have := (signed 12 (2 * field Thumb.b.pat w 'i')).isLt
    omega
  generalize C50.used (signed 12 (2 * field Thumb.b.pat w 'i')) = u at hodd hpq
  have hu := u.isLt
  have ha := (a.reg 15).isLt
  have e1 : (a.core.reg 15).toNat = (a.reg 15).toNat := rfl
  have e2 : ((a.set 15 v).core.reg 15).toNat = v.toNat := rfl
  simp only [BitVec.toNat_add, e1, e2, BitVec.toNat_ofNat] at hpq
  omega

/-- A literal load, a call and the return from it with PC popped, in all states with PC odd and
even. -/
example {s t : Machine} (hs : Regs32 s) (ht : Twin s t) : ∃ i j k, (trees.decode [0x01, 0x48] 0).1 = .ok i ∧
    (trees.decode [0x00, 0xf0, 0x02, 0xf8] 0).1 = .ok j ∧ (trees.decode [0x10, 0xbd] 0).1 = .ok k ∧
    (executeAll [i, j, k] s).1 = (executeAll [i, j, k] t).1 ∧ Twin (executeAll [i, j, k] s).2 (executeAll [i, j, k] t).2 := by
  obtain ⟨i, h1, b1⟩ := blind (e := Thumb.ldrLit) (by simp [encodings]) (w := 0x4801) ⟨by decide, by decide, by decide⟩ (not_wrong (by decide) _)
    (show field Thumb.ldrLit.pat 0x4801 't' < 15 by decide) (rest := []) (by simp) 0
  obtain ⟨j, h2, b2⟩ := blind (e := Thumb.bl) (by simp [encodings]) (w := 0xf802f000) ⟨by decide, by decide, by decide⟩ (by unfold Wrong; decide)
    trivial (rest := []) (by simp) 0
  obtain ⟨k, h3, b3⟩ := blind (e := Thumb.pop) (by simp [encodings]) (w := 0xbd10) ⟨by decide, by decide, by decide⟩ (not_wrong (by decide) _)
    trivial (rest := []) (by simp) 0
  refine ⟨i, j, k, h1, h2, h3, program_partial (fun x hx => ?_) hs ht⟩
  simp only [List.mem_cons, List.not_mem_nil, or_false] at hx
  rcases hx with rfl | rfl | rfl
  · exact ⟨_, b1⟩
  · exact ⟨_, b2⟩
  · exact ⟨_, b3⟩

end C100
end Verif
