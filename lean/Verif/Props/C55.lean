import Verif.Lemmas.Changes
import Verif.Props.C52to55

/-!
# C55 continued: lists of registers with words outside memory
-/

namespace Verif
open BS CpuM Thumb Exec

namespace C55

/-- No address is in two regions. -/
def Disjoint (mem : List Region) : Prop := mem.Pairwise fun m n => ∀ x, ¬ (m.has x = true ∧ n.has x = true)

theorem poke_disjoint {mem : List Region} (h : Disjoint mem) (x : Int) (n : Nat) (v : Int) : Disjoint (poke mem x n v) := by
  unfold Disjoint poke
  rw [updMem_eq_map h, List.pairwise_map]
  refine h.imp fun {r t} hd y => ?_
  rw [updRegion_has, updRegion_has]
  exact hd y

/-- The word `v` stored at `x`: nothing if `x` is in no region, and only the bytes up to the end of the region
it is in. -/
def Put (mem : List Region) (x : Word) (v : Nat) (f g : Int → Option Nat) : Prop :=
  ∀ y : Int,
    ((∃ m ∈ mem, m.start ≤ x.toNat ∧ (x.toNat : Int) ≤ y ∧ y < x.toNat + 4 ∧ y ≤ m.stop) → g y = some (byteOf v (y - x.toNat).toNat)) ∧
    ((∀ m ∈ mem, ¬ (m.start ≤ x.toNat ∧ (x.toNat : Int) ≤ y ∧ y < x.toNat + 4 ∧ y ≤ m.stop)) → g y = f y)

/-- The words stored one after the other from `x` upwards. -/
def PutAll (mem : List Region) : Word → List Word → (Int → Option Nat) → (Int → Option Nat) → Prop
  | _, [], f, g => g = f
  | x, v :: vs, f, g => ∃ h, Put mem x v.toNat f h ∧ PutAll mem (x + 4#32) vs h g

theorem putAll_map {mem mem' : List Region} (hr : ∀ (x y : Int), (∃ m ∈ mem', m.start ≤ x ∧ y ≤ m.stop) ↔ ∃ m ∈ mem, m.start ≤ x ∧ y ≤ m.stop) :
    ∀ (vs : List Word) (x : Word) (f g : Int → Option Nat), PutAll mem' x vs f g → PutAll mem x vs f g
  | [], _, _, _, h => h
  | v :: vs, x, f, g, ⟨k, h1, h2⟩ => by
    refine ⟨k, fun y => ⟨?_, ?_⟩, putAll_map hr vs _ _ _ h2⟩
    · rintro ⟨m, hm, a1, a2, a3, a4⟩
      obtain ⟨m', hm', b1, b2⟩ := (hr x.toNat y).2 ⟨m, hm, a1, a4⟩
      exact (h1 y).1 ⟨m', hm', b1, a2, a3, b2⟩
    · intro hn
      refine (h1 y).2 ?_
      rintro m hm ⟨a1, a2, a3, a4⟩
      obtain ⟨m', hm', b1, b2⟩ := (hr x.toNat y).1 ⟨m, hm, a1, a4⟩
      exact hn m' hm' ⟨b1, a2, a3, b2⟩

theorem poke_region {mem : List Region} (hm : Disjoint mem) {x y n : Int} {k : Nat} {v : Int} :
    (∃ m ∈ poke mem n k v, m.start ≤ x ∧ y ≤ m.stop) ↔ ∃ m ∈ mem, m.start ≤ x ∧ y ≤ m.stop := by
  unfold poke
  rw [updMem_eq_map hm]
  simp only [List.mem_map]
  constructor
  · rintro ⟨m, ⟨r, hr, rfl⟩, h1, h2⟩
    refine ⟨r, hr, ?_⟩
    unfold updRegion at h1 h2
    split at h1 <;> rename_i hc <;> simp only [hc, if_true, Bool.false_eq_true, if_false] at h2 <;> exact ⟨h1, h2⟩
  · rintro ⟨r, hr, h1, h2⟩
    refine ⟨_, ⟨r, hr, rfl⟩, ?_⟩
    unfold updRegion
    split <;> exact ⟨h1, h2⟩

/-- A write that starts in a region, which may have more bytes than addresses. -/
theorem flat_poke_full {mem : List Region} (hf : MemFull mem) (hd : Disjoint mem) {m : Region} (hmem : m ∈ mem) {x : Int} (h1 : m.start ≤ x)
    (h2 : x ≤ m.stop) (n : Nat) (v : Int) (y : Int) (hy : x ≤ y ∧ y < x + n ∧ y ≤ m.stop) :
    flat (poke mem x n v) y = some (byteOf v (y - x).toNat) := by
  have hl := hf m hmem
  unfold flat poke
  rw [updMem_eq_map hd, List.find?_map]
  have : (fun r : Region => r.has y) ∘ updRegion x n ((List.range n).map (byteOf v)) = fun r => r.has y := by
    funext r; simp [updRegion_has]
  rw [this, find_of_mem hd hmem (has_iff.2 ⟨by omega, by omega⟩)]
  simp only [Option.map_some]
  unfold updRegion
  rw [if_pos (has_iff.2 ⟨h1, h2⟩)]
  simp only
  rw [putBytes_getElem_inside _ _ _ _ _ (by omega) (by omega) (by simp), if_pos (by omega), List.getElem?_map, List.getElem?_range (by omega)]
  simp only [Option.map_some]
  congr 2; omega

theorem poke_put {mem : List Region} (hf : MemFull mem) (hd : Disjoint mem) (x v : Word) :
    Put mem x v.toNat (flat mem) (flat (poke mem x.toNat 4 v.toNat)) := by
  intro y
  constructor
  · rintro ⟨m, hm, h1, h2, h3, h4⟩
    exact flat_poke_full hf hd hm h1 (by omega) _ _ _ ⟨h2, h3, h4⟩
  · intro hn
    by_cases hy : (x.toNat : Int) ≤ y ∧ y < x.toNat + 4
    · by_cases hu : C25.Unmapped mem x.toNat
      · rw [poke_unmapped hu]
      · unfold C25.Unmapped at hu
        simp only [Classical.not_forall, Classical.not_not] at hu
        obtain ⟨m, hm, h1, h2⟩ := hu
        have h3 : m.stop < y := by
          have := hn m hm
          omega
        unfold flat poke
        rw [updMem_eq_map hd, List.find?_map]
        have : (fun r : Region => r.has y) ∘ updRegion x.toNat 4 ((List.range 4).map (byteOf v.toNat)) = fun r => r.has y := by
          funext r; simp [updRegion_has]
        rw [this]
        cases hf : mem.find? (fun r => r.has y) with
        | none => rfl
        | some r =>
          have hr := List.mem_of_find?_eq_some hf
          have hhas : r.has y = true := by simpa using List.find?_some hf
          simp only [Option.map_some]
          have hne : ¬ (r.has x.toNat = true) := by
            intro hx
            have e1 := find_of_mem hd hr hx
            have e2 := find_of_mem hd hm (has_iff.2 ⟨h1, h2⟩)
            rw [e1] at e2
            cases e2
            have := has_iff.1 hhas
            omega
          unfold updRegion
          rw [if_neg hne]
    · exact flat_poke_other hf (by omega) _

theorem storeAll_put : ∀ (ks : List Nat) (x : Word) (a : Arm), MemFull a.mem → Disjoint a.mem →
    PutAll a.mem x (ks.map fun k : Nat => a.reg k) (flat a.mem) (flat (a.storeAll ks x).mem)
  | [], _, _, _, _ => rfl
  | k :: ks, x, a, hf, hd =>
    ⟨_, poke_put hf hd x (a.reg k), putAll_map (fun _ _ => poke_region hd) _ _ _ _
      (storeAll_put ks (x + 4#32) (a.poke x 4 (a.reg k)) (poke_full hf _ _ _) (poke_disjoint hd _ _ _))⟩

theorem memOK_full {mem : List Region} (h : MemOK mem) : MemFull mem := fun m hm => by
  have := (h.1 m hm).1
  omega

theorem low15_listed {r : BitVec 16} (h : r.getLsbD 15 = false) : listed r = low15 r := by
  rw [listed_eq, h]; simp

/-- **C55.** STM anywhere, inside memory or not: every listed register is stored, the lowest first, at
consecutive words, of which the bytes outside memory are lost; it never raises. -/
theorem store_multiple_anywhere {n : Nat} {wback : Bool} {r : BitVec 16} {i : Instr} {s : Machine} {c : Core}
    (h : (Act.stm n wback r).Of i) (hs : Shows s c) (hm : MemOK s.mem) (h15 : r.getLsbD 15 = false) :
    ∃ g, PutAll s.mem (c.reg n) ((listed r).map fun k : Nat => c.reg k) c.mem g ∧
      EndsIn i s ⟨((if wback then c.set n (c.reg n + w32 (4 * count r)) else c).next i.size).reg, g⟩ := by
  obtain ⟨a, rfl, rfl, ha⟩ := hs.arm
  refine ⟨flat (a.storeAll (low15 r) (a.reg n)).mem, ?_, ?_⟩
  · rw [low15_listed h15]
    exact storeAll_put _ _ a (memOK_full hm) hm.2
  · have := ends_of h trivial (a := a) rfl
    have e : ((a.stm n wback r).next i.size).core =
        ⟨((if wback then a.core.set n (a.core.reg n + w32 (4 * count r)) else a.core).next i.size).reg, flat (a.storeAll (low15 r) (a.reg n)).mem⟩ := by
      have hc : count r = (low15 r).length := by rw [count_eq, h15]; simp
      rw [hc]
      unfold Arm.stm
      cases wback
      · apply Core.ext
        · simp only [Bool.false_eq_true, if_false]
          funext k
          simp only [next_core, Core.next, core_reg_set]
          show (if _ then keepBits 15 ((a.storeAll (low15 r) (a.reg n)).reg 15 + _) else (a.storeAll (low15 r) (a.reg n)).reg k) = _
          rw [storeAll_reg]; rfl
        · rfl
      · apply Core.ext
        · simp only [if_true]
          funext k
          have e1 : ((a.storeAll (low15 r) (a.reg n)).set n (a.reg n + w32 (4 * (low15 r).length))).core.reg =
              (a.core.set n (a.core.reg n + w32 (4 * (low15 r).length))).reg := by
            show (((a.storeAll (low15 r) (a.reg n)).core).set n _).reg = _
            funext j
            rw [core_reg_set, core_reg_set]
            show (if _ then _ else (a.storeAll (low15 r) (a.reg n)).reg j) = _
            rw [storeAll_reg]; rfl
          simp only [next_core, Core.next, core_reg_set, e1]
        · rfl
    rw [← e]
    exact this

/-- **C55.** PUSH likewise. -/
theorem push_anywhere {r : BitVec 16} {i : Instr} {s : Machine} {c : Core} (h : (Act.push r).Of i) (hs : Shows s c) (hm : MemOK s.mem)
    (h15 : r.getLsbD 15 = false) (x : Word) (hx : x = c.reg 13 - w32 (4 * count r)) :
    ∃ g, PutAll s.mem x ((listed r).map fun k : Nat => (c.set 13 x).reg k) c.mem g ∧ EndsIn i s ⟨((c.set 13 x).next i.size).reg, g⟩ := by
  obtain ⟨a, rfl, rfl, ha⟩ := hs.arm
  subst hx
  refine ⟨flat ((a.set 13 (a.reg 13 - w32 (4 * count r))).storeAll (low15 r) (a.reg 13 - w32 (4 * count r))).mem, ?_, ?_⟩
  · rw [low15_listed h15]
    exact storeAll_put _ _ (a.set 13 (a.reg 13 - w32 (4 * count r))) (memOK_full hm) hm.2
  · have := ends_of h trivial (a := a) rfl
    have e : (((a.set 13 (a.reg 13 - w32 (4 * count r))).storeAll (low15 r) (a.reg 13 - w32 (4 * count r))).next i.size).core =
        ⟨((a.core.set 13 (a.core.reg 13 - w32 (4 * count r))).next i.size).reg,
          flat ((a.set 13 (a.reg 13 - w32 (4 * count r))).storeAll (low15 r) (a.reg 13 - w32 (4 * count r))).mem⟩ := by
      apply Core.ext
      · funext k
        simp only [next_core, Core.next]
        rw [core_reg_set, core_reg_set]
        show (if _ then keepBits 15 (((a.set 13 _).storeAll (low15 r) _).reg 15 + _) else ((a.set 13 _).storeAll (low15 r) _).reg k) = _
        rw [storeAll_reg]; rfl
      · rfl
    rw [← e]
    exact this

/-- What loading the word at `x` gives: zero outside memory, and nothing (`none`) if the word reaches past
the end of the region it starts in. -/
def Fetched (mem : List Region) (c : Core) (x : Word) (v : Option Word) : Prop :=
  (C25.Unmapped mem x.toNat ∧ v = some 0#32) ∨ (Inside mem x.toNat 4 ∧ v = some (w32 (c.read x 4))) ∨ (Past mem x.toNat 4 ∧ v = none)

/-- Loading registers one after the other from `x` upwards: the state at the end, and whether all of them were
loaded. -/
inductive LoadedAll (mem : List Region) : Core → Word → List Nat → Core → Bool → Prop
  | done (c : Core) (x : Word) : LoadedAll mem c x [] c true
  | next {c d : Core} {x v : Word} {k : Nat} {ks : List Nat} {all : Bool} : Fetched mem c x (some v) → LoadedAll mem (c.set k v) (x + 4#32) ks d all →
      LoadedAll mem c x (k :: ks) d all
  | stop {c : Core} {x : Word} {k : Nat} {ks : List Nat} : Fetched mem c x none → LoadedAll mem c x (k :: ks) c false

theorem fetched_peek {a : Arm} (hm : MemOK a.mem) (x : Word) :
    (∃ u, peek a.mem x.toNat 4 = .ok u ∧ Fetched a.mem a.core x (some (w32 u))) ∨
    (peek a.mem x.toNat 4 = .error .indexError ∧ Fetched a.mem a.core x none) := by
  rcases where_is a.mem x.toNat 4 (by omega) with h | h | h
  · exact .inl ⟨0, peek_unmapped h 4, .inl ⟨h, rfl⟩⟩
  · obtain ⟨u, h1, h2⟩ := peek_word hm (by omega) h a.reg
    refine .inl ⟨u, h1, .inr (.inl ⟨h, ?_⟩)⟩
    rw [← w32_mod u]
    exact congrArg (fun z => some (w32 z)) h2
  · exact .inr ⟨peek_past hm (by omega) h, .inr (.inr ⟨h, rfl⟩)⟩

theorem loadedAll_append {mem : List Region} : ∀ (ks ls : List Nat) {c d e : Core} {x : Word} {all : Bool}, LoadedAll mem c x ks d true →
    LoadedAll mem d (x + w32 (4 * ks.length)) ls e all → LoadedAll mem c x (ks ++ ls) e all
  | [], ls, c, d, e, x, all, h1, h2 => by
    cases h1
    simpa [w32] using h2
  | k :: ks, ls, c, d, e, x, all, h1, h2 => by
    cases h1 with
    | next a b =>
      rw [List.length_cons, ← next_addr] at h2
      exact .next a (loadedAll_append ks ls b h2)

theorem loadedAll_stop {mem : List Region} : ∀ (ks ls : List Nat) {c d : Core} {x : Word}, LoadedAll mem c x ks d false →
    LoadedAll mem c x (ks ++ ls) d false
  | [], _, _, _, _, h => nomatch h
  | k :: ks, ls, c, d, x, h => by
    cases h with
    | next a b => exact .next a (loadedAll_stop ks ls b)
    | stop a => exact .stop a

theorem loadAll_loaded : ∀ (ks : List Nat) (x : Word) (a : Arm), MemOK a.mem →
    (∃ b, a.loadAll ks x = (.ok (x + w32 (4 * ks.length)), b) ∧ b.mem = a.mem ∧ LoadedAll a.mem a.core x ks b.core true) ∨
    ∃ b, a.loadAll ks x = (.error .indexError, b) ∧ b.mem = a.mem ∧ LoadedAll a.mem a.core x ks b.core false
  | [], x, a, _ => .inl ⟨a, by simp [Arm.loadAll, w32], rfl, .done _ _⟩
  | k :: ks, x, a, hm => by
    unfold Arm.loadAll
    rcases fetched_peek hm x with ⟨u, h1, h2⟩ | ⟨h1, h2⟩
    · rw [h1]
      simp only
      rcases loadAll_loaded ks (x + 4#32) (a.set k (w32 u)) hm with ⟨b, p1, p2, p3⟩ | ⟨b, p1, p2, p3⟩
      · exact .inl ⟨b, by rw [p1, next_addr, List.length_cons], p2, .next h2 p3⟩
      · exact .inr ⟨b, p1, p2, .next h2 p3⟩
    · rw [h1]
      exact .inr ⟨a, rfl, rfl, .stop h2⟩

theorem loadRegs_loaded (a : Arm) (hm : MemOK a.mem) (size : Nat) (r : BitVec 16) (x : Word) :
    (∃ b, a.loadRegs size r x = (.ok (), if r.getLsbD 15 then b else b.next size) ∧ LoadedAll a.mem a.core x (listed r) b.core true) ∨
    ∃ b, a.loadRegs size r x = (.error .indexError, b) ∧ LoadedAll a.mem a.core x (listed r) b.core false := by
  unfold Arm.loadRegs
  rw [listed_eq]
  rcases loadAll_loaded (low15 r) x a hm with ⟨b, h1, h2, h3⟩ | ⟨b, h1, h2, h3⟩
  · rw [h1]
    simp only
    unfold Arm.loadPc
    cases h15 : r.getLsbD 15
    · simp only [Bool.false_eq_true, if_false, List.append_nil]
      exact .inl ⟨b, rfl, h3⟩
    · simp only [if_true]
      rw [← h2] at hm
      rcases fetched_peek hm (x + w32 (4 * (low15 r).length)) with ⟨u, p1, p2⟩ | ⟨p1, p2⟩
      · rw [p1]
        rw [h2] at p2
        exact .inl ⟨b.set 15 (w32 u), rfl, loadedAll_append _ _ h3 (.next p2 (.done _ _))⟩
      · rw [p1]
        rw [h2] at p2
        exact .inr ⟨b, rfl, loadedAll_append _ _ h3 (.stop p2)⟩
  · rw [h1]
    exact .inr ⟨b, rfl, loadedAll_stop _ _ h3⟩

theorem fails_of {act : Act} {i : Instr} (h : act.Of i) (hv : act.Valid) {a b : Arm} {e : PyErr} (he : act.effect i.size a = (.error e, b)) :
    i.eval a.conc = (.error e, b.conc) := by
  rw [eval_exact h hv, he]
  rfl

/-- The write back of LDM: the base is moved behind the words, unless it is loaded itself. -/
def written (n : Nat) (wback : Bool) (r : BitVec 16) (c : Core) : Core :=
  if wback && !r.getLsbD n then c.set n (c.reg n + w32 (4 * count r)) else c

/-- **C55.** LDM anywhere, inside memory or not, and with any list: the registers are loaded one after the other,
the lowest first, with zero for words outside memory, PC with the word as it is. If a word reaches past the end of
its region, the instruction raises `IndexError`, and the registers before it are loaded already. -/
theorem load_multiple_anywhere {n : Nat} {wback : Bool} {r : BitVec 16} {i : Instr} {s : Machine} {c : Core}
    (h : (Act.ldm n wback r).Of i) (hs : Shows s c) (hm : MemOK s.mem) :
    ∃ d all, LoadedAll s.mem c (c.reg n) (listed r) d all ∧
      (all = true → EndsIn i s (written n wback r (if r.getLsbD 15 then d else d.next i.size))) ∧
      (all = false → ∃ s', i.eval s = (.error .indexError, s') ∧ Shows s' d) := by
  obtain ⟨a, rfl, rfl, ha⟩ := hs.arm
  rcases loadRegs_loaded a hm i.size r (a.reg n) with ⟨b, h1, h2⟩ | ⟨b, h1, h2⟩
  · refine ⟨b.core, true, h2, fun _ => ?_, fun e => (nomatch e)⟩
    have he : (Act.ldm n wback r).effect i.size a = (.ok (), (if r.getLsbD 15 then b else b.next i.size).writeBack n wback r) := by
      show a.ldm i.size n wback r = _
      unfold Arm.ldm
      rw [h1]
    have := ends_of h trivial he
    have e : ((if r.getLsbD 15 then b else b.next i.size).writeBack n wback r).core =
        written n wback r (if r.getLsbD 15 then b.core else b.core.next i.size) := by
      unfold Arm.writeBack written
      split <;> split <;> rfl
    rw [← e]
    exact this
  · refine ⟨b.core, false, h2, fun e => (nomatch e), fun _ => ⟨b.conc, ?_, shows_core b⟩⟩
    refine fails_of h trivial ?_
    show a.ldm i.size n wback r = _
    unfold Arm.ldm
    rw [h1]

/-- **C55.** POP likewise; SP is moved before anything is loaded. -/
theorem pop_anywhere {r : BitVec 16} {i : Instr} {s : Machine} {c : Core} (h : (Act.pop r).Of i) (hs : Shows s c) (hm : MemOK s.mem) :
    ∃ d all, LoadedAll s.mem (c.set 13 (c.reg 13 + w32 (4 * count r))) (c.reg 13) (listed r) d all ∧
      (all = true → EndsIn i s (if r.getLsbD 15 then d else d.next i.size)) ∧
      (all = false → ∃ s', i.eval s = (.error .indexError, s') ∧ Shows s' d) := by
  obtain ⟨a, rfl, rfl, ha⟩ := hs.arm
  rcases loadRegs_loaded (a.set 13 (a.reg 13 + w32 (4 * count r))) hm i.size r (a.reg 13) with ⟨b, h1, h2⟩ | ⟨b, h1, h2⟩
  · refine ⟨b.core, true, h2, fun _ => ?_, fun e => (nomatch e)⟩
    have := ends_of h trivial (a := a) h1
    have e : (if r.getLsbD 15 then b else b.next i.size).core = if r.getLsbD 15 then b.core else b.core.next i.size := by
      split <;> rfl
    rw [← e]
    exact this
  · exact ⟨b.core, false, h2, fun e => (nomatch e), fun _ => ⟨b.conc, fails_of h trivial h1, shows_core b⟩⟩

/-- **C55.** What is loaded is determined: there is one state and one answer to whether all were loaded. -/
theorem loaded_unique {mem : List Region} (hm : MemOK mem) {c : Core} {x : Word} {ks : List Nat} {d e : Core} {p q : Bool}
    (h1 : LoadedAll mem c x ks d p) (h2 : LoadedAll mem c x ks e q) : d = e ∧ p = q := by
  have uniq : ∀ {c : Core} {x : Word} {v w : Option Word}, Fetched mem c x v → Fetched mem c x w → v = w := by
    rintro c x v w (⟨a1, rfl⟩ | ⟨a1, rfl⟩ | ⟨a1, rfl⟩) (⟨b1, rfl⟩ | ⟨b1, rfl⟩ | ⟨b1, rfl⟩) <;> try rfl
    · obtain ⟨m, h, p, q⟩ := b1; exact absurd ⟨p, by omega⟩ (a1 m h)
    · obtain ⟨m, h, p, q, _⟩ := b1; exact absurd ⟨p, by omega⟩ (a1 m h)
    · obtain ⟨m, h, p, q⟩ := a1; exact absurd ⟨p, by omega⟩ (b1 m h)
    · obtain ⟨u, p1, _⟩ := peek_word hm (n := 4) (by omega) a1 (fun _ => 0#32)
      rw [peek_past hm (by omega) b1] at p1; cases p1
    · obtain ⟨m, h, p, q, _⟩ := a1; exact absurd ⟨p, by omega⟩ (b1 m h)
    · obtain ⟨u, p1, _⟩ := peek_word hm (n := 4) (by omega) b1 (fun _ => 0#32)
      rw [peek_past hm (by omega) a1] at p1; cases p1
  induction h1 with
  | done => cases h2; exact ⟨rfl, rfl⟩
  | next a _ ih =>
    cases h2 with
    | next a' b' =>
      cases uniq a a'
      exact ih b'
    | stop a' => cases uniq a a'
  | stop a =>
    cases h2 with
    | next a' _ => cases uniq a a'
    | stop => exact ⟨rfl, rfl⟩

/-- `stm r1!, {r0, r2, r3}` with the second word across the end of memory and the third outside; `ldm r1!, {r0, r2}`
with the second word outside; `ldm r1!, {r0, r2}` with the second word across the end. -/
example :
    ranMem [0x0d, 0xc1] (sample [(0, 0x11223344), (1, 0x1002), (2, 0x55667788), (3, 9)] [⟨0x1000, 0x1007, [0, 0, 0, 0, 0, 0, 0, 0]⟩]) =
      some [[0, 0, 0x44, 0x33, 0x22, 0x11, 0x88, 0x77, 0x66, 0x55]] ∧
    ranRegs [0x0d, 0xc1] (sample [(0, 0x11223344), (1, 0x1002), (2, 0x55667788), (3, 9)] [⟨0x1000, 0x1007, [0, 0, 0, 0, 0, 0, 0, 0]⟩]) [1, 15] =
      some [some 0x100e, some 2] ∧
    ranRegs [0x05, 0xc9] (sample [(1, 0x1004), (2, 7)] C52.exRam) [0, 1, 2, 15] = some [some 0x88776655, some 0x100c, some 0, some 2] ∧
    ranRegs [0x05, 0xc9] (sample [(1, 0x1002), (2, 7)] C52.exRam) [0, 1, 2, 15] = none ∧
    LoadedAll C52.exRam ⟨fun _ => 0x1004#32, flat C52.exRam⟩ 0x1008#32 [0] ((⟨fun _ => 0x1004#32, flat C52.exRam⟩ : Core).set 0 0#32) true := by
  refine ⟨?_, ?_, ?_, ?_, .next (v := 0#32) (.inl ⟨?_, rfl⟩) (.done _ _)⟩
  iterate 4 simp only [ranMem, ranRegs, ran]; rw [trees, decoders_eq]; decide +kernel
  intro m hm
  simp only [C52.exRam, List.mem_singleton] at hm
  subst hm
  decide

end C55
end Verif
