import Verif.Lemmas.Refine
import Verif.Props.C24to26

/-!
# Memory after instructions, and words stored and loaded in a row
-/

namespace Verif
open BS CpuM Thumb Exec

/-! ### Reading and writing at an address -/

theorem peek_unmapped {mem : List Region} {x : Int} (h : C25.Unmapped mem x) (n : Nat) : peek mem x n = .ok 0 := by
  unfold peek
  rw [C25.findMem_unmapped h]

theorem poke_unmapped {mem : List Region} {x : Int} (h : C25.Unmapped mem x) (n : Nat) (v : Int) : poke mem x n v = mem := by
  unfold poke
  exact updMem_none (C25.findMem_unmapped h)

/-- An access that starts in a region and reaches past its end. -/
def Past (mem : List Region) (x : Int) (n : Nat) : Prop := ∃ m ∈ mem, m.start ≤ x ∧ x ≤ m.stop ∧ m.stop < x + n - 1

theorem where_is (mem : List Region) (x : Int) (n : Nat) (hn : 0 < n) : C25.Unmapped mem x ∨ Inside mem x n ∨ Past mem x n := by
  by_cases h : C25.Unmapped mem x
  · exact .inl h
  · right
    unfold C25.Unmapped at h
    simp only [Classical.not_forall, Classical.not_not] at h
    obtain ⟨m, hm, h1, h2⟩ := h
    by_cases h3 : x + n - 1 ≤ m.stop
    · exact .inl ⟨m, hm, h1, h3⟩
    · exact .inr ⟨m, hm, h1, h2, by omega⟩

theorem peek_past {mem : List Region} (hm : MemOK mem) {x : Int} {n : Nat} (hn : n = 1 ∨ n = 2 ∨ n = 4) (h : Past mem x n) :
    peek mem x n = .error .indexError := by
  obtain ⟨m, h1, h2, h3, h4⟩ := h
  have hn' : n = 2 ∨ n = 4 := by omega
  have hr := C25.read_past_end (s := ⟨fun _ => none, mem⟩) hm (addr := .int x) hn' h1 h2 h3 h4
  rw [readMemory_peek _ _ hn] at hr
  have hp := congrArg Prod.fst hr
  unfold peekWord at hp
  simp only [Num.toInt] at hp
  cases he : peek mem x n with
  | ok u => rw [he] at hp; cases hp
  | error e => rw [he] at hp; cases hp; rfl

theorem putBytes_getElem_inside (data new : List Nat) (i n j : Nat) (h : i ≤ data.length) (hj : j < data.length)
    (hn : new.length = n) : (putBytes data i n new)[j]? = if i ≤ j ∧ j < i + n then new[j - i]? else data[j]? := by
  unfold putBytes
  rw [List.append_assoc, List.getElem?_append, List.length_take, Nat.min_eq_left (by omega)]
  by_cases h1 : j < i
  · rw [if_pos h1, if_neg (by omega), List.getElem?_take, if_pos h1]
  · rw [if_neg h1, List.getElem?_append, hn]
    by_cases h2 : j < i + n
    · rw [if_pos (by omega), if_pos (by omega)]
    · rw [if_neg (by omega), if_neg (by omega), List.getElem?_drop]
      congr 1; omega

/-- A write that starts in a region, wherever it ends: only the bytes in the region are
written. -/
theorem flat_poke_region {mem : List Region} (hm : MemOK mem) {m : Region} (hmem : m ∈ mem) {x : Int} (h1 : m.start ≤ x)
    (h2 : x ≤ m.stop) (n : Nat) (v : Int) (y : Int) :
    flat (poke mem x n v) y = if x ≤ y ∧ y < x + n ∧ y ≤ m.stop then some (byteOf v (y - x).toNat) else flat mem y := by
  have hl := (hm.1 m hmem).1
  unfold flat poke
  rw [updMem_eq_map hm.2, List.find?_map]
  have : (fun r : Region => r.has y) ∘ updRegion x n ((List.range n).map (byteOf v)) = fun r => r.has y := by
    funext r; simp [updRegion_has]
  rw [this]
  by_cases hy : m.start ≤ y ∧ y ≤ m.stop
  · rw [find_of_mem hm.2 hmem (has_iff.2 hy)]
    simp only [Option.map_some]
    unfold updRegion
    rw [if_pos (has_iff.2 ⟨h1, h2⟩)]
    simp only
    rw [putBytes_getElem_inside _ _ _ _ _ (by omega) (by omega) (by simp)]
    by_cases hc : x ≤ y ∧ y < x + n ∧ y ≤ m.stop
    · rw [if_pos (by omega), if_pos hc, List.getElem?_map, List.getElem?_range (by omega)]
      simp only [Option.map_some]
      congr 2; omega
    · rw [if_neg (by omega), if_neg hc]
  · rw [if_neg (by omega)]
    cases hf : mem.find? (fun r => r.has y) with
    | none => rfl
    | some r =>
      have hr := List.mem_of_find?_eq_some hf
      have hhas : r.has y = true := by simpa using List.find?_some hf
      simp only [Option.map_some]
      have hne : ¬ (r.has x = true) := by
        intro hx
        have e1 := find_of_mem hm.2 hr hx
        have e2 := find_of_mem hm.2 hmem (has_iff.2 ⟨h1, h2⟩)
        rw [e1] at e2
        cases e2
        exact hy (has_iff.1 hhas)
      unfold updRegion
      rw [if_neg hne]

/-! ### What instructions do to the regions -/

theorem storeAll_inside : ∀ (ks : List Nat) (x : Word) (a : Arm) {y : Int} {k : Nat},
    Inside (a.storeAll ks x).mem y k ↔ Inside a.mem y k
  | [], _, _, _, _ => Iff.rfl
  | j :: ks, x, a, y, k => by
    unfold Arm.storeAll
    rw [storeAll_inside ks]
    exact inside_poke

theorem storeAll_ok : ∀ (ks : List Nat) (x : Word) (a : Arm), MemOK a.mem → Words a.mem x ks.length → MemOK (a.storeAll ks x).mem
  | [], _, _, h, _ => h
  | j :: ks, x, a, h, hw => by
    obtain ⟨h1, h2⟩ := words_tail hw
    unfold Arm.storeAll
    exact storeAll_ok ks _ _ (poke_ok h (by omega) h1 _) (words_poke.mpr h2)

theorem loadAll_mem : ∀ (ks : List Nat) (x : Word) (a : Arm), (a.loadAll ks x).2.mem = a.mem
  | [], _, _ => rfl
  | k :: ks, x, a => by
    unfold Arm.loadAll
    cases peek a.mem x.toNat 4 with
    | ok v => exact loadAll_mem ks (x + 4#32) (a.set k (w32 v))
    | error e => rfl

theorem loadPc_mem (a : Arm) (size : Nat) (r : BitVec 16) (x : Word) : (a.loadPc size r x).2.mem = a.mem := by
  unfold Arm.loadPc
  split
  · cases peek a.mem x.toNat 4 <;> rfl
  · rfl

theorem loadRegs_mem (a : Arm) (size : Nat) (r : BitVec 16) (x : Word) : (a.loadRegs size r x).2.mem = a.mem := by
  unfold Arm.loadRegs
  have := loadAll_mem (low15 r) x a
  cases h : a.loadAll (low15 r) x with
  | mk res b =>
    rw [h] at this
    cases res with
    | ok y => exact (loadPc_mem b size r y).trans this
    | error e => exact this

theorem flags_mem (a : Arm) (on : Bool) (r : Word) (c v : Option Bool) : (a.flags on r c v).mem = a.mem := by
  unfold Arm.flags; cases on <;> rfl

theorem afterAdd_mem (a : Arm) (size : Nat) (flags : Bool) (d : Nat) (x y : Word) (c : Bool) :
    (a.afterAdd size flags d x y c).mem = a.mem := by
  unfold Arm.afterAdd
  exact flags_mem _ _ _ _ _

theorem afterOp_mem (a : Arm) (size : Nat) (flags : Bool) (d : Nat) (r : Word) (c : Option Bool) :
    (a.afterOp size flags d r c).mem = a.mem := by
  unfold Arm.afterOp
  exact flags_mem _ _ _ _ _

theorem loadTo_mem (a : Arm) (size sz : Nat) (sgn : Bool) (t : Nat) (x : Word) : (a.loadTo size sz sgn t x).2.mem = a.mem := by
  unfold Arm.loadTo
  cases peek a.mem x.toNat (sz / 8) <;> rfl

/-- The actions that write memory. -/
def Thumb.Act.Stores : Act → Prop
  | .store _ _ _ _ => True
  | .push _ => True
  | .stm _ _ _ => True
  | _ => False

theorem effect_mem {act : Act} (h : ¬ act.Stores) (size : Nat) (a : Arm) : (act.effect size a).2.mem = a.mem := by
  cases act with
  | store => exact absurd trivial h
  | push => exact absurd trivial h
  | stm => exact absurd trivial h
  | addSub => exact afterAdd_mem _ _ _ _ _ _ _
  | rsb => exact afterAdd_mem _ _ _ _ _ _ _
  | logic => exact afterOp_mem _ _ _ _ _ _
  | bic => exact afterOp_mem _ _ _ _ _ _
  | shiftImm => exact afterOp_mem _ _ _ _ _ _
  | shiftReg => exact afterOp_mem _ _ _ _ _ _
  | mul => exact afterOp_mem _ _ _ _ _ _
  | mov => exact afterOp_mem _ _ _ _ _ _
  | cmp => exact flags_mem _ _ _ _ _
  | tst => exact flags_mem _ _ _ _ _
  | load => exact loadTo_mem _ _ _ _ _ _
  | loadLit => exact loadTo_mem _ _ _ _ _ _
  | pop r => exact loadRegs_mem _ _ _ _
  | ldm n wback r =>
    show (a.ldm size n wback r).2.mem = a.mem
    unfold Arm.ldm
    have := loadRegs_mem a size r (a.reg n)
    cases hl : a.loadRegs size r (a.reg n) with
    | mk res b =>
      rw [hl] at this
      cases res with
      | ok u =>
        simp only
        unfold Arm.writeBack
        split <;> exact this
      | error e => exact this
  | branch cond offset =>
    simp only [Act.effect]
    split <;> rfl
  | cps e p f => simp only [Act.effect]; unfold Arm.cps; cases p <;> cases f <;> rfl
  | mrs d sysm =>
    show (a.mrs size d sysm).2.mem = a.mem
    unfold Arm.mrs
    split <;> rfl
  | _ => rfl

theorem effect_inside (act : Act) (size : Nat) (a : Arm) (y : Int) (k : Nat) :
    Inside (act.effect size a).2.mem y k ↔ Inside a.mem y k := by
  by_cases h : act.Stores
  · cases act with
    | store sz t n off => exact inside_poke
    | push r => exact storeAll_inside _ _ _
    | stm n wback r =>
      show Inside (a.stm n wback r).mem y k ↔ _
      unfold Arm.stm
      cases wback
      · exact storeAll_inside _ _ _
      · exact storeAll_inside _ _ _
    | _ => exact absurd h (fun h => h)
  · rw [effect_mem h]

theorem effect_memOK {act : Act} (hv : act.Valid) (hp : act.NoPc) (size : Nat) (a : Arm) (hm : MemOK a.mem)
    (hr : act.Right a.mem a.core) : MemOK (act.effect size a).2.mem := by
  by_cases h : act.Stores
  · cases act with
    | store sz t n off =>
      obtain ⟨_, _, h3⟩ := hp
      simp only [Act.Right, off_val h3, core_reg] at hr
      have hs := hv.1
      unfold SizeOK at hs
      exact poke_ok hm (by omega) hr _
    | push r =>
      obtain ⟨h1, h2⟩ := hr
      rw [count_eq, h1] at h2
      exact storeAll_ok _ _ (a.set 13 _) hm (by rw [count_eq, h1]; exact h2)
    | stm n wback r =>
      obtain ⟨h1, h2⟩ := hr
      rw [count_eq, h1] at h2
      show MemOK (a.stm n wback r).mem
      unfold Arm.stm
      cases wback
      · exact storeAll_ok _ _ a hm h2
      · exact storeAll_ok _ _ a hm h2
    | _ => exact absurd h (fun h => h)
  · rw [effect_mem h]; exact hm

/-- Executing the object ends normally with these registers and this memory, in regions
like those before. -/
def EndsWell (i : Instr) (s : Machine) (c : Core) : Prop :=
  ∃ i' s', i.eval s = (.ok i', s') ∧ Shows s' c ∧ MemOK s'.mem ∧ ∀ y k, Inside s'.mem y k ↔ Inside s.mem y k

theorem EndsWell.ends {i : Instr} {s : Machine} {c : Core} (h : EndsWell i s c) : EndsIn i s c := by
  obtain ⟨i', s', h1, h2, _⟩ := h
  exact ⟨i', s', h1, h2⟩

theorem does_well {act : Act} {i : Instr} (h : act.Of i) (hv : act.Valid) (hp : act.NoPc) {s : Machine} {c : Core} (hs : Shows s c)
    (hm : MemOK s.mem) (hr : act.Right s.mem c) : EndsWell i s (act.run i.size c) := by
  obtain ⟨a, rfl, rfl, ha⟩ := hs.arm
  rw [← ha] at hm hr
  obtain ⟨b, h1, h2⟩ := effect_right hv hp i.size a hm hr
  have h3 := effect_memOK hv hp i.size a hm hr
  have h4 := effect_inside act i.size a
  rw [h1] at h3 h4
  refine ⟨act.leaves a i, b.conc, ?_, ?_, h3, h4⟩
  · rw [eval_exact h hv a, h1]; rfl
  · rw [← h2]; exact shows_core b

/-! ### Words in flat memory -/

theorem read_write_same (c : Core) (x : Word) (n v : Nat) : (c.write x n v).read x n = v % 2 ^ (8 * n) := by
  unfold Core.read Core.write
  rw [flatRead_flatWrite]
  simp only [Option.getD]
  have e : (256 : Int) ^ n = ((2 ^ (8 * n) : Nat) : Int) := by rw [Nat.pow_mul]; simp
  rw [e, ← Int.natCast_emod]
  rfl

theorem read_write_other (c : Core) (x y : Word) (n k v : Nat) (h : x.toNat + n ≤ y.toNat ∨ y.toNat + k ≤ x.toNat) :
    (c.write x n v).read y k = c.read y k := by
  unfold Core.read Core.write
  rw [flatRead_congr (g := c.mem)]
  intro z h1 h2
  unfold flatWrite
  exact if_neg (by omega)

/-- Words at addresses that differ by a multiple of 4 are disjoint or equal. -/
theorem read_write_word (c : Core) {x y : Word} (v : Nat) (hx : x.toNat % 4 = y.toNat % 4) (h : x ≠ y) :
    (c.write x 4 v).read y 4 = c.read y 4 := by
  apply read_write_other
  have : x.toNat ≠ y.toNat := fun e => h (BitVec.eq_of_toNat_eq e)
  omega

theorem core_storeAll_reg : ∀ (ks : List Nat) (x : Word) (c : Core), (c.storeAll ks x).reg = c.reg
  | [], _, _ => rfl
  | k :: ks, x, c => by
    unfold Core.storeAll
    rw [core_storeAll_reg]; rfl

theorem mod_add (x : Word) (j : Nat) : (x + w32 (4 * j)).toNat % 4 = x.toNat % 4 := by
  unfold w32
  rw [BitVec.toNat_add, BitVec.toNat_ofNat]
  omega

theorem word_ne {x : Word} {i j : Nat} (h : i < j) (hj : j < 2 ^ 30) : x + w32 (4 * i) ≠ x + w32 (4 * j) := by
  intro e
  have := congrArg BitVec.toNat e
  unfold w32 at this
  rw [BitVec.toNat_add, BitVec.toNat_add, BitVec.toNat_ofNat, BitVec.toNat_ofNat] at this
  have := x.isLt
  omega

theorem add_zero_word (x : Word) : x + w32 (4 * 0) = x := by unfold w32; simp

theorem storeAll_read_other : ∀ (ks : List Nat) (x y : Word) (c : Core), x.toNat % 4 = y.toNat % 4 →
    (∀ j, j < ks.length → x + w32 (4 * j) ≠ y) → (c.storeAll ks x).read y 4 = c.read y 4
  | [], _, _, _, _, _ => rfl
  | k :: ks, x, y, c, hx, h => by
    unfold Core.storeAll
    rw [storeAll_read_other ks (x + 4#32) y _ ((mod_add x 1).trans hx) (fun j hj => by
        rw [next_addr]; exact h (j + 1) (by simpa using hj)),
      read_write_word _ _ hx (by have := h 0 (by simp); rw [add_zero_word] at this; exact this)]

/-- Stored words are where they should be, the first at the lowest address. -/
theorem storeAll_read : ∀ (ks : List Nat) (x : Word) (c : Core), ks.length < 2 ^ 30 →
    ∀ j (hj : j < ks.length), (c.storeAll ks x).read (x + w32 (4 * j)) 4 = (c.reg ks[j]).toNat
  | [], _, _, _, j, hj => by simp at hj
  | k :: ks, x, c, hl, j, hj => by
    unfold Core.storeAll
    rw [List.length_cons] at hl hj
    cases j with
    | zero =>
      rw [add_zero_word, storeAll_read_other ks (x + 4#32) x _ (mod_add x 1) (fun j hj => by
        rw [next_addr]
        have := word_ne (x := x) (i := 0) (j := j + 1) (by omega) (by omega)
        rw [add_zero_word] at this
        exact this.symm), read_write_same]
      exact Nat.mod_eq_of_lt (c.reg k).isLt
    | succ j =>
      rw [← next_addr, storeAll_read ks (x + 4#32) (c.write x 4 (c.reg k).toNat) (by omega) j (by omega)]
      rfl

theorem storeAll_mem_other : ∀ (ks : List Nat) (x : Word) (c : Core) (y : Int),
    (∀ j, j < ks.length → ¬ (((x + w32 (4 * j)).toNat : Int) ≤ y ∧ y < (x + w32 (4 * j)).toNat + 4)) →
    (c.storeAll ks x).mem y = c.mem y
  | [], _, _, _, _ => rfl
  | k :: ks, x, c, y, h => by
    unfold Core.storeAll
    rw [storeAll_mem_other ks (x + 4#32) _ y
      (fun j hj => by rw [next_addr]; exact h (j + 1) (by simpa using hj))]
    have := h 0 (by simp)
    rw [add_zero_word] at this
    unfold Core.write flatWrite
    exact if_neg this

theorem core_read_mem {c d : Core} (h : c.mem = d.mem) (x : Word) (n : Nat) : c.read x n = d.read x n := by
  unfold Core.read; rw [h]

theorem loadAll_other (k : Int) : ∀ (ks : List Nat) (x : Word) (c : Core), (∀ j ∈ ks, j < 16 ∧ (j : Int) ≠ k ∧ ¬ (j = 13 ∧ k = 17)) →
    (c.loadAll ks x).reg k = c.reg k
  | [], _, _, _ => rfl
  | j :: ks, x, c, h => by
    have hj := h j List.mem_cons_self
    unfold Core.loadAll
    rw [loadAll_other k ks _ _ (fun i hi => h i (List.mem_cons_of_mem _ hi)), core_reg_set, if_neg (by omega)]

/-- Loaded words are in the registers. -/
theorem loadAll_reg : ∀ (ks : List Nat) (x : Word) (c : Core), ks.Nodup → (∀ k ∈ ks, k < 15) →
    ∀ j (hj : j < ks.length), (c.loadAll ks x).reg ks[j] = keepBits ks[j] (w32 (c.read (x + w32 (4 * j)) 4))
  | [], _, _, _, _, j, hj => by simp at hj
  | k :: ks, x, c, hn, hk, j, hj => by
    unfold Core.loadAll
    rw [List.nodup_cons] at hn
    cases j with
    | zero =>
      have h0 := hk k List.mem_cons_self
      simp only [List.getElem_cons_zero]
      rw [loadAll_other _ ks _ _ (fun i hi => ⟨by have := hk i (List.mem_cons_of_mem _ hi); omega,
        fun e => hn.1 (by have : i = k := by omega
                          exact this ▸ hi), by omega⟩), add_zero_word, core_reg_set, if_pos (.inl rfl), if_neg (by omega)]
    | succ j =>
      simp only [List.getElem_cons_succ]
      rw [loadAll_reg ks (x + 4#32) _ hn.2 (fun i hi => hk i (List.mem_cons_of_mem _ hi)) j (by simpa using hj), next_addr]
      rfl

theorem listed_nodup (r : BitVec 16) : (listed r).Nodup := List.Pairwise.filter _ List.nodup_range

theorem mem_listed {r : BitVec 16} {k : Nat} : k ∈ listed r ↔ k < 16 ∧ r.getLsbD k = true := by
  unfold listed
  rw [List.mem_filter, List.mem_range]

theorem listed_length (r : BitVec 16) : (listed r).length = count r := rfl

theorem count_le (r : BitVec 16) : count r ≤ 16 := by
  unfold count
  exact Nat.le_trans (List.length_filter_le _ _) (by simp)

theorem keep_aligned {x : Word} (h : x.toNat % 4 = 0) : x &&& 0xfffffffc#32 = x := by
  apply BitVec.eq_of_getLsbD_eq
  intro k hk
  rw [BitVec.getLsbD_and]
  have e : (0xfffffffc#32).getLsbD k = decide (2 ≤ k) := by
    have : ∀ k : Fin 32, (0xfffffffc#32).getLsbD k = decide (2 ≤ k.val) := by decide
    exact this ⟨k, hk⟩
  rw [e]
  by_cases h2 : 2 ≤ k
  · rw [decide_eq_true h2, Bool.and_true]
  · rw [decide_eq_false h2, Bool.and_false]
    unfold BitVec.getLsbD
    rw [Nat.testBit_eq_decide_div_mod_eq]
    have : k = 0 ∨ k = 1 := by omega
    rcases this with rfl | rfl <;> simp <;> omega

theorem listed_of_not15 {r : BitVec 16} (h : r.getLsbD 15 = false) : listed r = low15 r := by
  rw [listed_eq, h]; simp

/-- Loading several registers and PC, exactly: bit 0 of the word for PC is kept. -/
theorem loadRegs_pc {a : Arm} (hm : MemOK a.mem) (size : Nat) (r : BitVec 16) (x : Word) (hw : Words a.mem x (count r))
    (h15 : r.getLsbD 15 = true) :
    ∃ b, a.loadRegs size r x = (.ok (), b) ∧
      b.core = (a.core.loadAll (low15 r) x).set 15 (w32 (a.core.read (x + w32 (4 * (low15 r).length)) 4)) := by
  rw [count_eq] at hw
  obtain ⟨b, q1, q2, q3⟩ := loadAll_core (low15 r) x a hm low15_lt (words_le (by omega) hw)
  unfold Arm.loadRegs
  rw [q1, ← q2]
  simp only
  unfold Arm.loadPc
  rw [h15] at hw
  have hin := hw (low15 r).length (by simp)
  obtain ⟨u, p1, p2⟩ := peek_word hm (by omega) hin b.reg
  refine ⟨b.set 15 (w32 u), ?_, ?_⟩
  · rw [if_pos h15, q3, p1]
  · have : a.core.read (x + w32 (4 * (low15 r).length)) 4 = u % 2 ^ 32 := p2.symm
    rw [this, w32_mod]
    rfl

end Verif
