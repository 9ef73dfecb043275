import Verif.Lemmas.Commute
import Verif.Props.C96

/-!
# C98: independent instructions can be exchanged
-/

namespace Verif
open BS CpuM Thumb

namespace C98

/-- One action does not look at the registers and flags the other may change. -/
structure Unaffected (act by_ : Act) : Prop where
  regs : ∀ k ∈ act.sources, ∀ t ∈ by_.targets, Apart k t
  flags : ∀ n ∈ act.flagsRead, n ∉ by_.flagBits

/-- Two actions that have nothing to do with each other in registers and flags: neither
looks at what the other changes, no register or flag is changed by both, and neither has
to do with PC. -/
structure Separate (p q : Act) : Prop where
  left : Unaffected p q
  right : Unaffected q p
  targets : ∀ k ∈ p.targets, ∀ t ∈ q.targets, Apart k t
  flags : ∀ n ∈ p.flagBits, n ∉ q.flagBits
  straight : p.Straight ∧ q.Straight

/-- Two actions that have nothing to do with each other, wherever they load and store:
registers and flags are separate, not both store, and none loads if the other stores. -/
structure Independent (p q : Act) : Prop extends Separate p q where
  stores : ¬ (p.Stores ∧ q.Stores)
  loads : (p.Loads → ¬ q.Stores) ∧ (q.Loads → ¬ p.Stores)

/-- What an action writes to memory in a state: address, number of bytes and value. -/
def writes (act : Act) (s : Machine) : List (Word × Nat × Word) := act.written (C96.view s)

/-- In this state no byte is stored by both actions, and none is loaded by one and stored
by the other. -/
structure BytesApart (p q : Act) (s : Machine) : Prop where
  stores : ∀ w ∈ writes q s, WritesApart (writes p s) w.1 w.2.1
  left : ∀ r ∈ C96.reads p s, WritesApart (writes q s) r.1 r.2
  right : ∀ r ∈ C96.reads q s, WritesApart (writes p s) r.1 r.2

theorem straight_pc {act : Act} (hs : act.Straight) {size : Nat} {a b : Arm} (h : act.effect size a = (.ok (), b)) :
    b.reg 15 = a.reg 15 + BitVec.ofNat 32 size := by
  have := effect_set15 hs h (a.reg 15)
  rw [set15_self, h] at this
  rw [(Prod.mk.inj this).2]
  rfl

/-- What the second does after the first. -/
theorem second {p q : Act} (hq : q.Valid) (hi : Unaffected q p) (hsq : q.Straight)
    (hpt : ∀ k ∈ p.targets, Apart 16 k) (hqt : ∀ k ∈ q.targets, Apart 16 k) (hq16 : 16 ∉ q.sources) {n m : Nat} {a a1 a2 : Arm}
    (hm : SameReads a.mem a1.mem (q.loaded a)) (h1 : p.effect n a = (.ok (), a1)) (h2 : q.effect m a = (.ok (), a2)) :
    ∃ a12, q.effect m a1 = (.ok (), a12) ∧
      (∀ k, k ≠ 15 → k ≠ 16 → (∀ t ∈ p.targets, Apart k t) → a12.reg k = a2.reg k) ∧
      (∀ b, b ∉ p.flagBits → (a12.reg 16).getLsbD b = (a2.reg 16).getLsbD b) ∧
      a12.mem = pokes (pokes a.mem (p.written a)) (q.written a) := by
  have e1 : (p.effect n a).2 = a1 := by rw [h1]
  have e2 : (q.effect m a).2 = a2 := by rw [h2]
  have hr1 : ∀ k, k ≠ 15 → k ≠ 16 → (∀ t ∈ p.targets, Apart k t) → a1.reg k = a.reg k := fun k h15 h16 h => by
    rw [← e1]; exact effect_apart h15 h16 h n a
  have hb1 : ∀ b, b ∉ p.flagBits → (a1.reg 16).getLsbD b = (a.reg 16).getLsbD b := fun b h => by
    rw [← e1]; exact effect_flagBits hpt h n a
  have hm1 : a1.mem = pokes a.mem (p.written a) := by rw [← e1]; exact effect_pokes p n a
  have hal : q.Alike a (a1.set 15 (a.reg 15)) := by
    refine ⟨rfl, fun k hk => ?_, fun b hb => ?_, hm⟩
    · have h15 : k ≠ 15 := fun e => hsq.source (e ▸ hk)
      rw [set15_other _ _ h15]
      exact (hr1 k h15 (fun e => hq16 (e ▸ hk)) (hi.regs k hk)).symm
    · exact (hb1 b (hi.flags b hb)).symm
  obtain ⟨r1, r2, r3⟩ := effect_alike hq (fun k hk e => (hqt k hk).1 e.symm) hal m
  rw [h2] at r1 r2
  cases he : q.effect m (a1.set 15 (a.reg 15)) with
  | mk res b =>
    rw [he] at r1 r2
    simp only at r1 r2
    subst r1
    have := effect_set15 hsq he (a1.reg 15)
    rw [set15_set15, set15_self] at this
    refine ⟨_, this, fun k h15 h16 hk => ?_, fun n hn => ?_, ?_⟩
    · rw [set15_other _ _ h15]
      rcases r2.regs k h16 with h | ⟨h, h'⟩
      · exact h.symm
      · rw [h', h, set15_other _ _ h15]; exact hr1 k h15 h16 hk
    · rw [set15_other _ _ (by decide)]
      rcases r2.bits n with h | ⟨h, h'⟩
      · exact h.symm
      · rw [h', h, set15_other _ _ (by decide)]; exact hb1 n hn
    · show b.mem = _
      have e3 : (q.effect m (a1.set 15 (a.reg 15))).2 = b := by rw [he]
      rw [← e3, effect_pokes, ← r3]
      show pokes a1.mem _ = _
      rw [hm1]

/-- Both orders give the same state. -/
theorem effects {p q : Act} (hp : p.Valid) (hq : q.Valid) (hi : Separate p q)
    (hpt : ∀ k ∈ p.targets, Apart 16 k) (hqt : ∀ k ∈ q.targets, Apart 16 k) (hp16 : 16 ∉ p.sources) (hq16 : 16 ∉ q.sources)
    {n m : Nat} {a a1 a2 : Arm} (m1 : SameReads a.mem a1.mem (q.loaded a)) (m2 : SameReads a.mem a2.mem (p.loaded a))
    (m3 : pokes (pokes a.mem (p.written a)) (q.written a) = pokes (pokes a.mem (q.written a)) (p.written a))
    (h1 : p.effect n a = (.ok (), a1)) (h2 : q.effect m a = (.ok (), a2)) :
    ∃ b, q.effect m a1 = (.ok (), b) ∧ p.effect n a2 = (.ok (), b) := by
  obtain ⟨b, f1, f2, f3, f4⟩ := second hq hi.right hi.straight.2 hpt hqt hq16 m1 h1 h2
  obtain ⟨c, g1, g2, g3, g4⟩ := second hp hi.left hi.straight.1 hqt hpt hp16 m2 h2 h1
  have eb : (q.effect m a1).2 = b := by rw [f1]
  have ec : (p.effect n a2).2 = c := by rw [g1]
  refine ⟨b, f1, ?_⟩
  rw [g1]
  congr 1
  apply Arm.ext
  · funext k
    by_cases h15 : k = 15
    · subst h15
      rw [straight_pc hi.straight.1 g1, straight_pc hi.straight.2 f1, straight_pc hi.straight.1 h1, straight_pc hi.straight.2 h2,
        BitVec.add_assoc, BitVec.add_assoc, BitVec.add_comm (BitVec.ofNat 32 n)]
    · by_cases h16 : k = 16
      · subst h16
        apply BitVec.eq_of_getLsbD_eq
        intro i _
        by_cases hf : i ∈ p.flagBits
        · have hf' := hi.flags i hf
          rw [g3 i hf', ← eb, effect_flagBits hqt hf' m a1]
        · rw [f3 i hf, ← ec, effect_flagBits hpt hf n a2]
      · by_cases hk : ∀ t ∈ p.targets, Apart k t
        · rw [f2 k h15 h16 hk, ← ec, effect_apart h15 h16 hk n a2]
        · have hk' : ∀ t ∈ q.targets, Apart k t := by
            intro t ht
            have hk2 := hk
            simp only [Classical.not_forall] at hk2
            obtain ⟨j, hj, hk2⟩ := hk2
            have := hi.targets j hj t ht
            unfold Apart at this hk2 ⊢
            omega
          rw [g2 k h15 h16 hk', ← eb, effect_apart h15 h16 hk' m a1]
  · rw [← ec, ← eb, effect_extra, effect_extra]
    rw [show a2 = (q.effect m a).2 by rw [h2], show a1 = (p.effect n a).2 by rw [h1], effect_extra, effect_extra]
  · rw [f4, g4, m3]

theorem mem_after {act : Act} {n : Nat} {a a1 : Arm} (h : act.effect n a = (.ok (), a1)) : a1.mem = pokes a.mem (act.written a) := by
  rw [← effect_pokes act n a, h]

/-- Both orders, if what each loads is not changed by the other and the stores can be
exchanged. -/
theorem both {i j : Instr} {p q : Act} (hi : p.Of i) (hj : q.Of j) (hp : p.Valid) (hq : q.Valid) (h : Separate p q) {a : Arm}
    (m1 : SameReads a.mem (pokes a.mem (p.written a)) (q.loaded a)) (m2 : SameReads a.mem (pokes a.mem (q.written a)) (p.loaded a))
    (m3 : pokes (pokes a.mem (p.written a)) (q.written a) = pokes (pokes a.mem (q.written a)) (p.written a))
    {i' j' : Instr} {s1 s2 : Machine} (h1 : i.eval a.conc = (.ok i', s1)) (h2 : j.eval a.conc = (.ok j', s2)) :
    executeAll [i, j] a.conc = executeAll [j, i] a.conc ∧ ∃ t, executeAll [i, j] a.conc = (.ok (), t) := by
  rw [eval_exact hi hp] at h1
  rw [eval_exact hj hq] at h2
  obtain ⟨rfl, rfl, e1⟩ := outcome_ok h1
  obtain ⟨rfl, rfl, e2⟩ := outcome_ok h2
  have hpt : ∀ k ∈ p.targets, Apart 16 k := fun k hk => by
    have := targets_of hi k hk
    exact ⟨by omega, by omega, by omega⟩
  have hqt : ∀ k ∈ q.targets, Apart 16 k := fun k hk => by
    have := targets_of hj k hk
    exact ⟨by omega, by omega, by omega⟩
  obtain ⟨b, f, g⟩ := effects hp hq h hpt hqt (fun e => (sources_of hi _ e).2.2 rfl) (fun e => (sources_of hj _ e).2.2 rfl)
    (by rw [effect_pokes]; exact m1) (by rw [effect_pokes]; exact m2) m3 (Prod.ext e1 rfl) (Prod.ext e2 rfl)
  have key : ∀ {x y : Instr} {u v : Act}, u.Of x → v.Of y → u.Valid → v.Valid → (u.effect x.size a).1 = .ok () →
      v.effect y.size (u.effect x.size a).2 = (.ok (), b) → executeAll [x, y] a.conc = (.ok (), b.conc) := by
    intro x y u v hx hy hu hv he hf
    have s1 : x.eval a.conc = (.ok (u.leaves a x), (u.effect x.size a).2.conc) := by
      rw [eval_exact hx hu, show u.effect x.size a = (.ok (), (u.effect x.size a).2) from Prod.ext he rfl]
      rfl
    have s2 : y.eval (u.effect x.size a).2.conc = (.ok (v.leaves (u.effect x.size a).2 y), b.conc) := by
      rw [eval_exact hy hv, hf]
      rfl
    unfold executeAll
    rw [bind_ok s1]
    unfold executeAll
    rw [bind_ok s2]
    rfl
  have k1 := key hi hj hp hq e1 f
  have k2 := key hj hi hq hp e2 g
  exact ⟨k1.trans k2.symm, _, k1⟩

theorem written_none {act : Act} (h : ¬ act.Stores) (a : Arm) : act.written a = [] := by
  cases act with
  | store => exact absurd trivial h
  | push => exact absurd trivial h
  | stm => exact absurd trivial h
  | _ => rfl

theorem loaded_none {act : Act} (h : ¬ act.Loads) (a : Arm) : act.loaded a = [] := by
  cases act with
  | load => exact absurd trivial h
  | loadLit => exact absurd trivial h
  | pop => exact absurd trivial h
  | ldm => exact absurd trivial h
  | _ => rfl

theorem reads_none {p q : Act} (h : p.Loads → ¬ q.Stores) (a : Arm) : SameReads a.mem (pokes a.mem (q.written a)) (p.loaded a) := by
  intro r hr
  by_cases hl : p.Loads
  · rw [written_none (h hl)]; rfl
  · rw [loaded_none hl] at hr; cases hr

/-- **C98.** Two independent instructions that both end normally can be executed in
either order: the state afterwards is the same, including PC. -/
theorem exchange {i j : Instr} {p q : Act} (hi : p.Of i) (hj : q.Of j) (hp : p.Valid) (hq : q.Valid) (h : Independent p q)
    {s : Machine} (hs : Regs32 s) {i' j' : Instr} {s1 s2 : Machine} (h1 : i.eval s = (.ok i', s1)) (h2 : j.eval s = (.ok j', s2)) :
    executeAll [i, j] s = executeAll [j, i] s ∧ ∃ t, executeAll [i, j] s = (.ok (), t) := by
  obtain ⟨a, rfl⟩ := hs.arm
  refine both hi hj hp hq h.toSeparate (reads_none h.loads.2 a) (reads_none h.loads.1 a) ?_ h1 h2
  by_cases hst : p.Stores
  · rw [written_none (fun e => h.stores ⟨hst, e⟩)]; rfl
  · rw [written_none hst]; rfl

theorem writes_conc {act : Act} {i : Instr} (h : act.Of i) (a : Arm) : writes act a.conc = act.written a :=
  written_alike (fun k hk => C96.view_reg a (C96.sources_core h k hk)) fun n _ => by
    unfold Arm.flag
    rw [C96.view_reg a (by decide)]

theorem reads_apart {act : Act} (hv : act.Valid) {a : Arm} (hm : MemFull a.mem) {l : List (Word × Nat × Word)}
    (h : ∀ r ∈ act.loaded a, WritesApart l r.1 r.2) : SameReads a.mem (pokes a.mem l) (act.loaded a) := by
  intro r hr
  unfold peekWord
  rw [peek_pokes (loaded_size hv a r hr) l hm (h r hr)]

/-- **C98.** Loads and stores of different bytes: two instructions that both end normally,
are separate in registers and flags and touch different bytes of memory in this state
(unless both only load) can be executed in either order. Every region must have all its
bytes; it may overlap others. -/
theorem exchange_apart {i j : Instr} {p q : Act} (hi : p.Of i) (hj : q.Of j) (hp : p.Valid) (hq : q.Valid) (h : Separate p q)
    {s : Machine} (hs : Regs32 s) (hm : MemFull s.mem) (hb : BytesApart p q s) {i' j' : Instr} {s1 s2 : Machine}
    (h1 : i.eval s = (.ok i', s1)) (h2 : j.eval s = (.ok j', s2)) :
    executeAll [i, j] s = executeAll [j, i] s ∧ ∃ t, executeAll [i, j] s = (.ok (), t) := by
  obtain ⟨a, rfl⟩ := hs.arm
  obtain ⟨b1, b2, b3⟩ := hb
  rw [C96.reads_conc hi, writes_conc hj] at b2
  rw [C96.reads_conc hj, writes_conc hi] at b3
  rw [writes_conc hi, writes_conc hj] at b1
  exact both hi hj hp hq h (reads_apart hq hm b3) (reads_apart hp hm b2) (pokes_comm _ _ hm b1) h1 h2

theorem executeAll_append : ∀ (l m : List Instr) (s : Machine), executeAll (l ++ m) s = (executeAll l >>= fun _ => executeAll m) s
  | [], _, _ => rfl
  | i :: l, m, s => by
    show executeAll (i :: (l ++ m)) s = _
    show (i.eval >>= fun _ => executeAll (l ++ m)) s = ((i.eval >>= fun _ => executeAll l) >>= fun _ => executeAll m) s
    cases he : i.eval s with
    | mk r t =>
      cases r with
      | ok i' =>
        rw [bind_ok he, executeAll_append l m t]
        simp only [bind_def, he]
      | error e =>
        rw [bind_err he]
        simp only [bind_def, he]

/-- **C98.** In a program: if two independent neighbours both end normally in the state in
which the first is reached, exchanging them does not change what the program does. -/
theorem exchange_in_program (before after : List Instr) {i j : Instr} {p q : Act} (hi : p.Of i) (hj : q.Of j) (hp : p.Valid)
    (hq : q.Valid) (h : Independent p q) {s t : Machine} (hs : executeAll before s = (.ok (), t)) (ht : Regs32 t) {i' j' : Instr}
    {s1 s2 : Machine} (h1 : i.eval t = (.ok i', s1)) (h2 : j.eval t = (.ok j', s2)) :
    executeAll (before ++ ([i, j] ++ after)) s = executeAll (before ++ ([j, i] ++ after)) s := by
  obtain ⟨e, u, hu⟩ := exchange hi hj hp hq h ht h1 h2
  rw [executeAll_append, executeAll_append, bind_ok hs, bind_ok hs, executeAll_append, executeAll_append, bind_ok hu, bind_ok (e ▸ hu)]

/-- **C98.** The same in a program for loads and stores of different bytes. -/
theorem exchange_apart_in_program (before after : List Instr) {i j : Instr} {p q : Act} (hi : p.Of i) (hj : q.Of j) (hp : p.Valid)
    (hq : q.Valid) (h : Separate p q) {s t : Machine} (hs : executeAll before s = (.ok (), t)) (ht : Regs32 t) (hm : MemFull t.mem)
    (hb : BytesApart p q t) {i' j' : Instr} {s1 s2 : Machine} (h1 : i.eval t = (.ok i', s1)) (h2 : j.eval t = (.ok j', s2)) :
    executeAll (before ++ ([i, j] ++ after)) s = executeAll (before ++ ([j, i] ++ after)) s := by
  obtain ⟨e, u, hu⟩ := exchange_apart hi hj hp hq h ht hm hb h1 h2
  rw [executeAll_append, executeAll_append, bind_ok hs, bind_ok hs, executeAll_append, executeAll_append, bind_ok hu, bind_ok (e ▸ hu)]

/-- `lsls r0, r2, #4` and `str r3, [r4]` are independent, `lsls r0, r2, #4` and `adds r1, #1`
are not: both set flags. -/
example : Independent (.shiftImm .lsl true 0 2 4) (.store 32 3 4 (.imm 0#32)) ∧
    ¬ Independent (.shiftImm .lsl true 0 2 4) (.addSub false false true 1 1 (.imm 1#32)) := by
  refine ⟨⟨⟨⟨by simp [Act.targets], by decide⟩, ⟨?_, by decide⟩, by simp [Act.targets], by decide,
    ⟨id, by decide, by decide⟩, ⟨id, by decide, by decide⟩⟩, fun h => h.1.elim, fun h => h.elim, fun h => h.elim⟩, fun h => h.flags 31 (by decide) (by decide)⟩
  intro k hk t ht
  simp only [Act.sources, Act.targets, Off.regs, List.mem_cons, List.not_mem_nil, or_false] at hk ht
  unfold Apart
  omega

/-- `lsls r0, r2, #4` and `str r3, [r4]` in both orders; `lsls r0, r2, #4` and
`adds r1, #1` in both orders leave different flags. -/
example :
    let s := sample [(2, 0x20000000), (3, 0x1234), (4, 0x10), (15, 0x100)] [⟨0x10, 0x13, [9, 9, 9, 9]⟩]
    let run := fun l => let t := (executeAll (objects l) s).2; (([0, 1, 15, 16].map fun k => t.regs (some k)), t.mem.map (·.data))
    run [[0x10, 0x01], [0x23, 0x60]] = ([some 0, some 0, some 0x104, some 0x40000000], [[0x34, 0x12, 0, 0]]) ∧
    run [[0x23, 0x60], [0x10, 0x01]] = ([some 0, some 0, some 0x104, some 0x40000000], [[0x34, 0x12, 0, 0]]) ∧
    run [[0x10, 0x01], [0x01, 0x31]] = ([some 0, some 1, some 0x104, some 0], [[9, 9, 9, 9]]) ∧
    run [[0x01, 0x31], [0x10, 0x01]] = ([some 0, some 1, some 0x104, some 0x40000000], [[9, 9, 9, 9]]) := by
  intro s run
  simp only [run, objects]
  rw [trees, decoders_eq]
  refine ⟨?_, ?_, ?_, ?_⟩ <;> decide +kernel

/-- `str r3, [r4]` and `strb r5, [r4, #4]` store different bytes; `strb r5, [r4, #3]` stores
one that the first stores too. -/
example :
    let s := sample [(3, 0x1234), (4, 0x10), (5, 0x77), (15, 0x100)] [⟨0x10, 0x17, [9, 9, 9, 9, 8, 8, 8, 8]⟩]
    writes (.store 32 3 4 (.imm 0#32)) s = [(0x10#32, 4, 0x1234#32)] ∧ writes (.store 8 5 4 (.imm 4#32)) s = [(0x14#32, 1, 0x77#32)] ∧
    BytesApart (.store 32 3 4 (.imm 0#32)) (.store 8 5 4 (.imm 4#32)) s ∧
    ¬ BytesApart (.store 32 3 4 (.imm 0#32)) (.store 8 5 4 (.imm 3#32)) s := by
  intro s
  have e1 : writes (.store 32 3 4 (.imm 0#32)) s = [(0x10#32, 4, 0x1234#32)] := by decide +kernel
  have e2 : writes (.store 8 5 4 (.imm 4#32)) s = [(0x14#32, 1, 0x77#32)] := by decide +kernel
  have e3 : writes (.store 8 5 4 (.imm 3#32)) s = [(0x13#32, 1, 0x77#32)] := by decide +kernel
  refine ⟨e1, e2, ⟨?_, by simp [C96.reads, Act.loaded], by simp [C96.reads, Act.loaded]⟩, fun h => ?_⟩
  · rw [e1, e2]
    simp [WritesApart, RangesApart]
  · have := h.stores
    rw [e1, e3] at this
    simp [WritesApart, RangesApart] at this

/-- Both orders of the stores of different bytes, and of the stores that meet. -/
example :
    let s := sample [(3, 0x1234), (4, 0x10), (5, 0x77), (15, 0x100)] [⟨0x10, 0x17, [9, 9, 9, 9, 8, 8, 8, 8]⟩]
    let run := fun l => (executeAll (objects l) s).2.mem.map (·.data)
    run [[0x23, 0x60], [0x25, 0x71]] = [[0x34, 0x12, 0, 0, 0x77, 8, 8, 8]] ∧ run [[0x25, 0x71], [0x23, 0x60]] = [[0x34, 0x12, 0, 0, 0x77, 8, 8, 8]] ∧
    run [[0x23, 0x60], [0xe5, 0x70]] = [[0x34, 0x12, 0, 0x77, 8, 8, 8, 8]] ∧ run [[0xe5, 0x70], [0x23, 0x60]] = [[0x34, 0x12, 0, 0, 8, 8, 8, 8]] := by
  intro s run
  simp only [run, objects]
  rw [trees, decoders_eq]
  refine ⟨?_, ?_, ?_, ?_⟩ <;> decide +kernel

end C98
end Verif
