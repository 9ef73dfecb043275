import Verif.Lemmas.Console
import Verif.Lemmas.Refine

/-!
# The start of the simulator
-/

namespace Verif
open Console BS

/-- The size of the simulated flash memory for a binary file. -/
def flashSize (binary : List Nat) : Nat := max 0x10000 binary.length

/-- The size of the simulated RAM for an initial stack pointer. -/
def ramSize (sp : Nat) : Nat := max 0x10000 (sp - 0x1fff8000)

/-- Memory after the start. -/
def image (binary : List Nat) (sp : Nat) : Flat := fun x =>
  if 0 ≤ x ∧ x < flashSize binary then some (binary.getD x.toNat 0)
  else if 0x1fff8000 ≤ x ∧ x < 0x1fff8000 + ramSize sp then some 0
  else none

/-- The flash memory. -/
def flashRegion (binary : List Nat) : Region :=
  ⟨0, 0 + (flashSize binary : Int) - 1, putBytes (List.replicate (flashSize binary) 0) 0 binary.length binary⟩

/-- The RAM. -/
def ramRegion (sp : Nat) : Region := ⟨0x1fff8000, 0x1fff8000 + (ramSize sp : Int) - 1, List.replicate (ramSize sp) 0⟩

theorem flashRegion_ok {binary : List Nat} (hb : ∀ b ∈ binary, b < 256) : MemOK [flashRegion binary] := by
  refine ⟨?_, List.pairwise_singleton _ _⟩
  intro m hm
  rw [List.mem_singleton] at hm
  subst hm
  have hl : binary.length ≤ flashSize binary := by unfold flashSize; omega
  constructor
  · unfold flashRegion
    simp only
    rw [putBytes_length _ _ _ _ (by simpa using hl) rfl, List.length_replicate]
    omega
  · intro b h
    unfold flashRegion putBytes at h
    simp only [List.take_zero, List.nil_append, Nat.zero_add, List.drop_replicate, List.mem_append, List.mem_replicate] at h
    rcases h with h | ⟨-, h⟩
    · exact hb b h
    · omega

theorem memory_ok {binary : List Nat} (hb : ∀ b ∈ binary, b < 256) (hl : binary.length ≤ 0x1fff8000) (sp : Nat) :
    MemOK [flashRegion binary, ramRegion sp] := by
  have h1 := flashRegion_ok hb
  refine ⟨?_, ?_⟩
  · intro m hm
    simp only [List.mem_cons, List.not_mem_nil, or_false] at hm
    rcases hm with rfl | rfl
    · exact h1.1 _ List.mem_cons_self
    · unfold ramRegion
      simp only [List.length_replicate, List.mem_replicate]
      exact ⟨by omega, by omega⟩
  · rw [List.pairwise_cons]
    refine ⟨?_, List.pairwise_singleton _ _⟩
    intro m hm x
    rw [List.mem_singleton] at hm
    subst hm
    rw [has_iff, has_iff]
    unfold flashRegion ramRegion flashSize
    simp only
    omega

theorem flash_byte (binary : List Nat) (i : Nat) (h : i < flashSize binary) :
    (flashRegion binary).data[i]? = some (binary.getD i 0) := by
  have hl : binary.length ≤ flashSize binary := by unfold flashSize; omega
  unfold flashRegion
  simp only
  rw [putBytes_getElem _ _ _ _ _ (by simpa using hl) rfl]
  by_cases hi : i < binary.length
  · rw [if_pos (by omega)]
    simp [hi]
  · rw [if_neg (by omega)]
    rw [List.getElem?_replicate, if_pos h]
    simp [List.getD, List.getElem?_eq_none (Nat.not_lt.1 hi)]

theorem flat_flash (binary : List Nat) (x : Int) :
    flat [flashRegion binary] x = if 0 ≤ x ∧ x < flashSize binary then some (binary.getD x.toNat 0) else none := by
  unfold flat
  by_cases h : 0 ≤ x ∧ x < flashSize binary
  · have hh : (flashRegion binary).has x = true := by
      rw [has_iff]
      unfold flashRegion
      simp only
      omega
    rw [List.find?_cons, hh, if_pos h]
    simp only
    rw [show (x - (flashRegion binary).start).toNat = x.toNat by unfold flashRegion; simp]
    exact flash_byte binary _ (by omega)
  · have hh : (flashRegion binary).has x = false := by
      rw [← Bool.not_eq_true, has_iff]
      unfold flashRegion
      simp only
      omega
    rw [List.find?_cons, hh, if_neg h]
    rfl

theorem flat_memory (binary : List Nat) (sp : Nat) : flat [flashRegion binary, ramRegion sp] = image binary sp := by
  funext x
  unfold image
  by_cases h : 0 ≤ x ∧ x < flashSize binary
  · rw [if_pos h]
    have := flat_flash binary x
    rw [if_pos h] at this
    rw [← this]
    have hh : (flashRegion binary).has x = true := by
      rw [has_iff]
      unfold flashRegion
      simp only
      omega
    unfold flat
    simp only [List.find?_cons, hh]
  · rw [if_neg h]
    have hh : (flashRegion binary).has x = false := by
      rw [← Bool.not_eq_true, has_iff]
      unfold flashRegion
      simp only
      omega
    unfold flat
    rw [List.find?_cons, hh]
    simp only
    by_cases h2 : 0x1fff8000 ≤ x ∧ x < 0x1fff8000 + (ramSize sp : Int)
    · have h3 : (ramRegion sp).has x = true := by
        rw [has_iff]
        unfold ramRegion
        simp only
        omega
      rw [List.find?_cons, h3, if_pos h2]
      simp only
      unfold ramRegion
      simp only
      rw [List.getElem?_replicate, if_pos (by omega)]
    · have h3 : (ramRegion sp).has x = false := by
        rw [← Bool.not_eq_true, has_iff]
        unfold ramRegion
        simp only
        omega
      rw [List.find?_cons, h3, if_neg h2]
      rfl

/-- The word at the beginning of a binary file that is padded with zeros. -/
def wordAt (binary : List Nat) (i : Nat) : Nat :=
  binary.getD i 0 + 256 * (binary.getD (i + 1) 0 + 256 * (binary.getD (i + 2) 0 + 256 * binary.getD (i + 3) 0))

theorem flatRead_image {binary : List Nat} {f : Flat} (hf : ∀ x : Nat, x < 8 → f x = some (binary.getD x 0)) {i : Nat} (hi : i ≤ 4) :
    flatRead f i 4 = some (wordAt binary i) := by
  have h0 := hf i (by omega)
  have h1 := hf (i + 1) (by omega)
  have h2 := hf (i + 2) (by omega)
  have h3 := hf (i + 3) (by omega)
  simp only [Int.natCast_add] at h1 h2 h3
  unfold flatRead flatRead flatRead flatRead flatRead
  rw [show (i : Int) + 1 + 1 = i + ((2 : Nat) : Int) by omega, show (i : Int) + ((2 : Nat) : Int) + 1 = i + ((3 : Nat) : Int) by omega]
  rw [h0, h2, h3, show (i : Int) + 1 = i + ((1 : Nat) : Int) from rfl, h1]
  simp [wordAt]

theorem wordAt_lt {binary : List Nat} (hb : ∀ b ∈ binary, b < 256) (i : Nat) : wordAt binary i < 2 ^ 32 := by
  have h : ∀ j, binary.getD j 0 < 256 := by
    intro j
    rw [List.getD_eq_getElem?_getD]
    cases hj : binary[j]? with
    | none => decide
    | some b => exact hb b (List.mem_of_getElem? hj)
  have := h i
  have := h (i + 1)
  have := h (i + 2)
  have := h (i + 3)
  unfold wordAt
  omega

/-- Setting up memory succeeds for every binary file. -/
theorem createSim_ok {binary : List Nat} (hb : ∀ b ∈ binary, b < 256) (s : Machine) (hs : s.mem = []) :
    createSim binary s = (.ok (), { s with mem := [flashRegion binary, ramRegion (wordAt binary 0)] }) := by
  have e1 : addMemory 0 (max 0x10000 (binary.length : Int)) s =
      (.ok (), { s with mem := [⟨0, 0 + (flashSize binary : Int) - 1, List.replicate (flashSize binary) 0⟩] }) := by
    unfold addMemory
    rw [if_neg (by omega), hs]
    have : max 0x10000 (binary.length : Int) = (flashSize binary : Int) := by unfold flashSize; omega
    rw [this, Int.toNat_natCast, List.nil_append]
  have e2 : writeMemoryBlock 0 binary { s with mem := [⟨0, 0 + (flashSize binary : Int) - 1, List.replicate (flashSize binary) 0⟩] } =
      (.ok (), { s with mem := [flashRegion binary] }) := by
    have hh : Region.has ⟨0, 0 + (flashSize binary : Int) - 1, List.replicate (flashSize binary) 0⟩ 0 = true := by
      rw [has_iff]
      have : 0x10000 ≤ flashSize binary := by unfold flashSize; omega
      simp only
      omega
    unfold writeMemoryBlock findMem updMem
    simp only [List.find?_cons, hh, if_true, Option.map_some, Int.sub_zero, Int.toNat_zero]
    unfold flashRegion
    rfl
  have hin : Inside [flashRegion binary] 0 4 := by
    refine ⟨_, List.mem_cons_self, ?_⟩
    have : 0x10000 ≤ flashSize binary := by unfold flashSize; omega
    unfold flashRegion
    simp only
    omega
  obtain ⟨v, h1, h2, h3⟩ := readMemory_inside (s := { s with mem := [flashRegion binary] }) (addr := .int 0) (flashRegion_ok hb)
    (n := 4) (by simp) hin
  have hv : v = wordAt binary 0 := by
    have h5 := flatRead_image (binary := binary) (f := flat [flashRegion binary]) (i := 0) (fun x hx => by
      have : 0x10000 ≤ flashSize binary := by unfold flashSize; omega
      rw [flat_flash, if_pos (by omega)]
      rfl) (by decide)
    have h4 : flatRead (flat [flashRegion binary]) 0 4 = some v := h1
    rw [show ((0 : Nat) : Int) = 0 from rfl, h4] at h5
    exact Option.some.inj h5
  subst hv
  have h3' : readMemory (.int 0) 32 { s with mem := [flashRegion binary] } =
      (.ok (bv 32 (wordAt binary 0)), { s with mem := [flashRegion binary] }) := h3
  unfold createSim
  rw [CpuM.bind_ok e1, CpuM.bind_ok e2, CpuM.bind_ok h3']
  have hu : (bv 32 (wordAt binary 0)).unsigned = wordAt binary 0 := by
    unfold unsigned
    rw [bv_value, Nat.mod_eq_of_lt (wordAt_lt hb 0)]
  rw [hu]
  unfold addMemory ramRegion
  have hr : (if (wordAt binary 0 : Nat) ≠ 0 then max ((wordAt binary 0 : Int) - 0x1fff8000) 0x10000 else 0x10000) = (ramSize (wordAt binary 0) : Int) := by
    unfold ramSize
    split <;> omega
  rw [hr, if_neg (by omega), Int.toNat_natCast, List.singleton_append]

/-- An address is in some region exactly if there is a byte at it. -/
theorem mapped_iff {mem : List Region} (hm : MemOK mem) (x : Int) : (findMem mem x).isSome = (flat mem x).isSome := by
  unfold findMem flat
  cases hf : mem.find? (·.has x) with
  | none => rfl
  | some m =>
    have h1 := List.find?_some hf
    simp only [has_iff] at h1
    have h2 := (hm.1 m (List.mem_of_find?_eq_some hf)).1
    simp only [Option.map_some, Option.isSome_some]
    rw [List.getElem?_eq_getElem (by omega)]
    rfl

/-- The machine after a reset: PC from the vector table if it is an address in memory, and
SP from it if it is the end of a word in memory. -/
def vectors (c : Core) : Core :=
  let pc := BitVec.ofNat 32 (c.read 4 4)
  let sp := BitVec.ofNat 32 (c.read 0 4)
  let c1 := if (c.mem pc.toNat).isSome then c.set 15 pc else c
  if (c.mem ((sp.toNat : Int) - 4)).isSome then c1.set 13 sp else c1

theorem cpu_ok {α : Type} {x : CpuM α} {w : World} {a : α} {s : Machine} (h : x w.cpu = (.ok a, s)) : cpu x w = (.ok a, { w with cpu := s }) := by
  unfold cpu
  rw [h]

theorem cpu_err {α : Type} {x : CpuM α} {w : World} {e : PyErr} {s : Machine} (h : x w.cpu = (.error e, s)) :
    cpu x w = (.error (.py e), { w with cpu := s }) := by
  unfold cpu
  rw [h]

/-- Reading a word that lies in memory. -/
theorem readWord {s : Machine} {c : Core} (hs : Shows s c) (hm : MemOK s.mem) {x : Nat} (hx : x < 2 ^ 32) (hin : Inside s.mem x 4) :
    readMemory (.int x) 32 s = (.ok (ofBV (BitVec.ofNat 32 (c.read (BitVec.ofNat 32 x) 4))), s) := by
  obtain ⟨v, h1, h2, h3⟩ := readMemory_inside (s := s) (addr := .int x) hm (n := 4) (by simp) hin
  have h4 : c.read (BitVec.ofNat 32 x) 4 = v := by
    unfold Core.read
    have h5 : flatRead (flat s.mem) x 4 = some v := h1
    rw [BitVec.toNat_ofNat, Nat.mod_eq_of_lt hx, ← hs.2, h5]
    rfl
  rw [h4, ← bv_eq_ofBV]
  exact h3

theorem shows_set {s : Machine} {c : Core} (hs : Shows s c) {k : Int} (hk : k ∈ coreIndices) {r : RegArg} (hr : registerIndex r = some k) (v : Word) :
    ∃ s', writeRegister r (.bs (ofBV v)) s = (.ok (), s') ∧ s'.mem = s.mem ∧ Shows s' (c.set k v) := by
  obtain ⟨a, rfl, rfl, ha⟩ := hs.arm
  refine ⟨_, writeRegister_conc a hr hk v, rfl, ?_⟩
  rw [shows_conc]
  exact ⟨fun _ _ => rfl, rfl⟩

/-- What is printed after a reset. -/
def resetLines (c : Core) : List Output := [
  .line (c! "CPU model reset."),
  .line (c! "PC = 0x" ++ hexPad 8 ((BitVec.ofNat 32 (c.read 4 4)).toNat : Int)),
  .line (c! "SP = 0x" ++ hexPad 8 ((BitVec.ofNat 32 (c.read 0 4)).toNat : Int))]

theorem setIf_ok {s : Machine} {c : Core} (hs : Shows s c) {k : Int} (hk : k ∈ coreIndices) {r : RegArg} (hr : registerIndex r = some k)
    (b : Bool) (v : Word) : ∃ s', setIf b (writeRegister r (.bs (ofBV v))) s = (.ok (), s') ∧ s'.mem = s.mem ∧
      Shows s' (if b then c.set k v else c) := by
  cases b with
  | false => exact ⟨s, rfl, rfl, hs⟩
  | true => exact shows_set hs hk hr v

theorem resetSim_ok {s : Machine} {c : Core} (hs : Shows s c) (hm : MemOK s.mem) (h0 : Inside s.mem 0 4) (h4 : Inside s.mem 4 4)
    (out : List Output) : ∃ s', resetSim ⟨s, out⟩ = (.ok (), ⟨s', out ++ resetLines c⟩) ∧ s'.mem = s.mem ∧ Shows s' (vectors c) := by
  have e1 := readWord hs hm (x := 4) (by decide) h4
  obtain ⟨s1, e2, m1, hs1⟩ := setIf_ok hs (k := 15) (by decide) idx_pc (flat s.mem (BitVec.ofNat 32 (c.read 4 4)).toNat).isSome
    (BitVec.ofNat 32 (c.read 4 4))
  have hc1 : ∀ x n, (if (flat s.mem (BitVec.ofNat 32 (c.read 4 4)).toNat).isSome then c.set 15 (BitVec.ofNat 32 (c.read 4 4)) else c).read x n = c.read x n := by
    intro x n
    split <;> rfl
  have e3 := readWord hs1 (by rw [m1]; exact hm) (x := 0) (by decide) (by rw [m1]; exact h0)
  rw [hc1] at e3
  obtain ⟨s2, e4, m2, hs2⟩ := setIf_ok hs1 (k := 13) (by decide) idx_sp (flat s.mem (((BitVec.ofNat 32 (c.read 0 4)).toNat : Int) - 4)).isSome
    (BitVec.ofNat 32 (c.read 0 4))
  refine ⟨s2, ?_, m2.trans m1, ?_⟩
  · unfold resetSim
    rw [ConM.bind_ok (cpu_ok e1)]
    have f1 : mapped (ofBV (BitVec.ofNat 32 (c.read 4 4))).unsigned s =
        (.ok (flat s.mem (BitVec.ofNat 32 (c.read 4 4)).toNat).isSome, s) := by
      unfold mapped
      rw [mapped_iff hm]
      rfl
    rw [ConM.bind_ok (cpu_ok f1), ConM.bind_ok (cpu_ok e2), ConM.bind_ok (cpu_ok e3)]
    have f2 : mapped (((ofBV (BitVec.ofNat 32 (c.read 0 4))).unsigned : Int) - 4) s1 =
        (.ok (flat s.mem (((BitVec.ofNat 32 (c.read 0 4)).toNat : Int) - 4)).isSome, s1) := by
      unfold mapped
      rw [m1, mapped_iff hm]
      rfl
    rw [ConM.bind_ok (cpu_ok f2), ConM.bind_ok (cpu_ok e4)]
    rfl
  · rw [hs.2] at hs2
    exact hs2

/-- The registers before the reset. -/
def blank (f : Flat) : Core := ⟨fun k => if k = 16 then 0x01000000#32 else 0#32, f⟩

theorem shows_new (mem : List Region) : Shows { Machine.new with mem := mem } (blank (flat mem)) := by
  refine ⟨fun k hk => ?_, rfl⟩
  unfold Machine.new blank
  simp only [if_pos hk]
  split <;> rfl

/-- The start of the simulator always succeeds. -/
theorem start_ok {binary : List Nat} (hb : ∀ b ∈ binary, b < 256) (hl : binary.length ≤ 0x1fff8000) (out : List Output) :
    ∃ s, MemOK s.mem ∧ flat s.mem = image binary (wordAt binary 0) ∧
      Shows s (vectors (blank (image binary (wordAt binary 0)))) ∧
      (do cpu (createSim binary); resetSim) ⟨Machine.new, out⟩ = (.ok (), ⟨s, out ++ resetLines (blank (image binary (wordAt binary 0)))⟩) := by
  have h1 := createSim_ok hb Machine.new rfl
  have hm := memory_ok hb hl (wordAt binary 0)
  have hf := flat_memory binary (wordAt binary 0)
  have hs := shows_new [flashRegion binary, ramRegion (wordAt binary 0)]
  have hin : ∀ x : Int, 0 ≤ x → x ≤ 4 → Inside [flashRegion binary, ramRegion (wordAt binary 0)] x 4 := by
    intro x hx0 hx4
    refine ⟨_, List.mem_cons_self, ?_⟩
    have : 0x10000 ≤ flashSize binary := by unfold flashSize; omega
    unfold flashRegion
    simp only
    omega
  rw [hf] at hs
  obtain ⟨s, e, m, h⟩ := resetSim_ok hs hm (hin 0 (by decide) (by decide)) (hin 4 (by decide) (by decide)) out
  refine ⟨s, by rw [m]; exact hm, by rw [m]; exact hf, h, ?_⟩
  rw [ConM.bind_ok (cpu_ok h1)]
  exact e

end Verif
