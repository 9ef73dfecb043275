import Verif.Lemmas.Machine

/-!
# Lemmas about memory
-/

namespace Verif
open BS CpuM

theorem has_iff {m : Region} {x : Int} : m.has x = true ↔ m.start ≤ x ∧ x ≤ m.stop := by
  simp [Region.has]

theorem find_of_mem : ∀ {mem : List Region} {m : Region} {x : Int},
    (mem.Pairwise fun m n => ∀ x, ¬ (m.has x = true ∧ n.has x = true)) → m ∈ mem → m.has x = true →
    mem.find? (·.has x) = some m
  | [], _, _, _, h, _ => by simp at h
  | r :: t, m, x, hp, h, hx => by
    rw [List.pairwise_cons] at hp
    rcases List.mem_cons.1 h with rfl | h'
    · simp [hx]
    · have hr : r.has x = false := by
        have := hp.1 m h' x
        cases hrx : r.has x
        · rfl
        · exact absurd ⟨hrx, hx⟩ this
      rw [List.find?_cons, hr]
      exact find_of_mem hp.2 h' hx

/-- The region of an address after an update at `x`. -/
def updRegion (x : Int) (n : Nat) (new : List Nat) (m : Region) : Region :=
  if m.has x then { m with data := putBytes m.data (x - m.start).toNat n new } else m

theorem updRegion_has (x : Int) (n : Nat) (new : List Nat) (m : Region) (y : Int) :
    (updRegion x n new m).has y = m.has y := by
  unfold updRegion; split <;> rfl

theorem updMem_eq_map {x : Int} {n : Nat} {new : List Nat} : ∀ {mem : List Region},
    (mem.Pairwise fun m n => ∀ x, ¬ (m.has x = true ∧ n.has x = true)) →
    updMem x n new mem = mem.map (updRegion x n new)
  | [], _ => rfl
  | r :: t, hp => by
    rw [List.pairwise_cons] at hp
    unfold updMem
    rw [List.map_cons]
    cases hr : r.has x
    · simp only [Bool.false_eq_true, if_false]
      rw [updMem_eq_map hp.2]
      simp [updRegion, hr]
    · simp only [if_true]
      have : t.map (updRegion x n new) = t := by
        refine (List.map_congr_left ?_).trans (List.map_id' t)
        intro m hm
        have := hp.1 m hm x
        have hmx : m.has x = false := by
          cases h : m.has x
          · rfl
          · exact absurd ⟨hr, h⟩ this
        simp [updRegion, hmx]
      rw [this]
      simp [updRegion, hr]

theorem putBytes_getElem (data new : List Nat) (i n j : Nat) (h : i + n ≤ data.length) (hn : new.length = n) :
    (putBytes data i n new)[j]? = if i ≤ j ∧ j < i + n then new[j - i]? else data[j]? := by
  unfold putBytes
  rw [List.append_assoc, List.getElem?_append, List.length_take, Nat.min_eq_left (by omega)]
  by_cases h1 : j < i
  · rw [if_pos h1, if_neg (by omega), List.getElem?_take, if_pos h1]
  · rw [if_neg h1, List.getElem?_append, hn]
    by_cases h2 : j < i + n
    · rw [if_pos (by omega), if_pos (by omega)]
    · rw [if_neg (by omega), if_neg (by omega), List.getElem?_drop]
      congr 1; omega

theorem putBytes_length (data new : List Nat) (i n : Nat) (h : i + n ≤ data.length) (hn : new.length = n) :
    (putBytes data i n new).length = data.length := by
  unfold putBytes
  simp only [List.length_append, List.length_take, List.length_drop]; omega

theorem updMem_ok {mem : List Region} (hm : MemOK mem) {x : Int} {n : Nat} {new : List Nat}
    (hn : new.length = n) (h0 : 0 < n) (hin : Inside mem x n) (hb : ∀ b ∈ new, b < 256) :
    MemOK (updMem x n new mem) := by
  rw [updMem_eq_map hm.2]
  constructor
  · intro m' hm'
    rw [List.mem_map] at hm'
    obtain ⟨m, hmem, rfl⟩ := hm'
    have hl := hm.1 m hmem
    unfold updRegion
    by_cases hx : m.has x = true
    · rw [if_pos hx]
      obtain ⟨r, hr, h1, h2⟩ := hin
      have e1 := find_of_mem hm.2 hmem hx
      have e2 := find_of_mem hm.2 hr (has_iff.2 ⟨h1, by omega⟩)
      rw [e1] at e2
      have : m = r := by simpa using e2
      subst this
      have hx' := has_iff.1 hx
      constructor
      · rw [putBytes_length _ _ _ _ (by omega) hn]; exact hl.1
      · intro b hbm
        simp only [putBytes, List.mem_append] at hbm
        rcases hbm with (hbm | hbm) | hbm
        · exact hl.2 b (List.mem_of_mem_take hbm)
        · exact hb b hbm
        · exact hl.2 b (List.mem_of_mem_drop hbm)
    · rw [if_neg hx]; exact hl
  · rw [List.pairwise_map]
    refine hm.2.imp ?_
    intro a b h y
    rw [updRegion_has, updRegion_has]; exact h y

theorem flat_updMem {mem : List Region} (hm : MemOK mem) {x : Int} {n : Nat} {new : List Nat}
    (hn : new.length = n) (h0 : 0 < n) (hin : Inside mem x n) (y : Int) :
    flat (updMem x n new mem) y = if x ≤ y ∧ y < x + n then new[(y - x).toNat]? else flat mem y := by
  obtain ⟨m, hmem, h1, h2⟩ := hin
  have hl := hm.1 m hmem
  unfold flat
  rw [updMem_eq_map hm.2, List.find?_map]
  have : (fun r : Region => r.has y) ∘ updRegion x n new = fun r => r.has y := by
    funext r; simp [updRegion_has]
  rw [this]
  by_cases hy : x ≤ y ∧ y < x + n
  · rw [if_pos hy, find_of_mem hm.2 hmem (has_iff.2 ⟨by omega, by omega⟩)]
    simp only [Option.map_some]
    unfold updRegion
    rw [if_pos (has_iff.2 ⟨h1, by omega⟩)]
    simp only
    rw [putBytes_getElem _ _ _ _ _ (by omega) hn, if_pos (by omega)]
    congr 1; omega
  · rw [if_neg hy]
    cases hf : mem.find? (fun r => r.has y) with
    | none => rfl
    | some r =>
      simp only [Option.map_some]
      have hr := List.mem_of_find?_eq_some hf
      have hry := List.find?_some hf
      unfold updRegion
      by_cases hrx : r.has x = true
      · have e1 := find_of_mem hm.2 hr hrx
        rw [find_of_mem hm.2 hmem (has_iff.2 ⟨h1, by omega⟩)] at e1
        have : m = r := by simpa using e1
        subst this
        rw [if_pos hrx]
        simp only
        have := has_iff.1 hry
        rw [putBytes_getElem _ _ _ _ _ (by omega) hn, if_neg (by omega)]
      · rw [if_neg hrx]

theorem updMem_bounds (x : Int) (n : Nat) (new : List Nat) : ∀ mem : List Region,
    (updMem x n new mem).map (fun m => (m.start, m.stop)) = mem.map fun m => (m.start, m.stop)
  | [] => rfl
  | m :: t => by
    unfold updMem
    by_cases h : m.has x = true
    · rw [if_pos h]; rfl
    · rw [if_neg h, List.map_cons, List.map_cons, updMem_bounds]

theorem find_none_updMem {x y : Int} {n : Nat} {new : List Nat} : ∀ {mem : List Region},
    (updMem x n new mem).find? (·.has y) = none ↔ mem.find? (·.has y) = none
  | [] => Iff.rfl
  | m :: t => by
    unfold updMem
    by_cases h : m.has x = true
    · rw [if_pos h, List.find?_cons, List.find?_cons]
      have : Region.has { m with data := putBytes m.data (x - m.start).toNat n new } y = m.has y := rfl
      rw [this]
      cases m.has y <;> simp
    · rw [if_neg h, List.find?_cons, List.find?_cons]
      cases m.has y
      · exact find_none_updMem
      · simp

/-- Little-endian reading of flat memory. -/
def flatRead (f : Flat) (x : Int) : Nat → Option Nat
  | 0 => some 0
  | n + 1 => match f x, flatRead f (x + 1) n with
    | some b, some r => some (b + 256 * r)
    | _, _ => none

theorem find_inside {mem : List Region} (hm : MemOK mem) {x : Int} {n : Nat} (h0 : 0 < n) (hin : Inside mem x n) :
    ∃ m, m ∈ mem ∧ mem.find? (·.has x) = some m ∧ m.start ≤ x ∧ x + n - 1 ≤ m.stop ∧
      (∀ i : Nat, i < n → ∃ b, flat mem (x + i) = some b ∧ m.data[(x - m.start).toNat + i]? = some b ∧ b < 256) := by
  obtain ⟨m, hmem, h1, h2⟩ := hin
  have hl := hm.1 m hmem
  refine ⟨m, hmem, find_of_mem hm.2 hmem (has_iff.2 ⟨h1, by omega⟩), h1, h2, ?_⟩
  intro i hi
  have hlt : (x - m.start).toNat + i < m.data.length := by omega
  refine ⟨m.data[(x - m.start).toNat + i], ?_, List.getElem?_eq_getElem hlt, hl.2 _ (List.getElem_mem hlt)⟩
  unfold flat
  rw [find_of_mem hm.2 hmem (has_iff.2 ⟨by omega, by omega⟩)]
  simp only
  rw [show (x + (i : Int) - m.start).toNat = (x - m.start).toNat + i by omega]
  exact List.getElem?_eq_getElem hlt

theorem getBytes_cons {data : List Nat} {i b n : Nat} (h : data[i]? = some b) :
    getBytes data i (n + 1) = b :: getBytes data (i + 1) n := by
  unfold getBytes
  have hlt : i < data.length := by
    by_cases h' : i < data.length
    · exact h'
    · rw [List.getElem?_eq_none (by omega)] at h; simp at h
  rw [List.drop_eq_getElem_cons hlt, List.take_succ_cons]
  rw [List.getElem?_eq_getElem hlt] at h
  congr 1
  simpa using h

theorem getBytes_zero (data : List Nat) (i : Nat) : getBytes data i 0 = [] := by simp [getBytes]

/-- Reading `8 * n` bits whose bytes are all in one region. -/
theorem readMemory_inside {s : Machine} (hm : MemOK s.mem) {addr : Num} {n : Nat} (hn : n = 1 ∨ n = 2 ∨ n = 4)
    (hin : Inside s.mem addr.toInt n) :
    ∃ v, flatRead (flat s.mem) addr.toInt n = some v ∧ v < 2 ^ (8 * n) ∧
      readMemory addr (8 * n) s = (.ok (bv (8 * n) v), s) := by
  obtain ⟨m, hmem, hf, h1, h2, hb⟩ := find_inside hm (by omega) hin
  unfold readMemory
  have hfm : findMem s.mem addr.toInt = some (m, (addr.toInt - m.start).toNat) := by
    unfold findMem; rw [hf]; rfl
  generalize addr.toInt = x at *
  generalize (x - m.start).toNat = off at *
  rcases hn with rfl | rfl | rfl
  · obtain ⟨b0, f0, d0, l0⟩ := hb 0 (by omega)
    simp only [Int.natCast_zero, Int.add_zero, Nat.add_zero] at f0 d0
    refine ⟨b0, ?_, by omega, ?_⟩
    · simp [flatRead, f0]
    · have hd : delegateReadMemory x 8 s = (.ok (.bytes [b0]), s) := by
        unfold delegateReadMemory
        rw [hfm]; simp only [if_true]
        rw [getBytes_cons d0, getBytes_zero]
      rw [bind_ok hd]
      show (init (.bytes [b0]) (some ((8 : Nat) : Int)), s) = _
      have : bytesValue [b0] 0 0 = b0 := by simp [bytesValue]
      show ((.ok (ofInt (bytesValue [b0] 0 0 : Nat) 8) : PyRes BS), s) = _
      rw [this, ofInt_nat]
  · obtain ⟨b0, f0, d0, l0⟩ := hb 0 (by omega)
    obtain ⟨b1, f1, d1, l1⟩ := hb 1 (by omega)
    simp only [Int.natCast_zero, Int.add_zero, Nat.add_zero] at f0 d0
    have f1' : flat s.mem (x + 1) = some b1 := f1
    refine ⟨b0 + 256 * b1, ?_, by omega, ?_⟩
    · simp [flatRead, f0, f1']
    · have hd : delegateReadMemory x 16 s = (.ok (.int ((b0 ||| (b1 <<< 8) : Nat) : Int)), s) := by
        unfold delegateReadMemory
        rw [hfm]; simp only [show (16 = 8) = False by simp, if_false, if_true]
        rw [getBytes_cons d0, getBytes_cons d1, getBytes_zero]; rfl
      rw [bind_ok hd]
      show (init (.int ((b0 ||| (b1 <<< 8) : Nat) : Int)) (some ((16 : Nat) : Int)), s) = _
      rw [init_int_width, ofInt_nat, C21.word16 l0]
  · obtain ⟨b0, f0, d0, l0⟩ := hb 0 (by omega)
    obtain ⟨b1, f1, d1, l1⟩ := hb 1 (by omega)
    obtain ⟨b2, f2, d2, l2⟩ := hb 2 (by omega)
    obtain ⟨b3, f3, d3, l3⟩ := hb 3 (by omega)
    simp only [Int.natCast_zero, Int.add_zero, Nat.add_zero] at f0 d0
    have f1' : flat s.mem (x + 1) = some b1 := f1
    have f2' : flat s.mem (x + 1 + 1) = some b2 := by rw [Int.add_assoc]; exact f2
    have f3' : flat s.mem (x + 1 + 1 + 1) = some b3 := by rw [Int.add_assoc, Int.add_assoc]; exact f3
    refine ⟨b0 + 256 * b1 + 65536 * b2 + 16777216 * b3, ?_, by omega, ?_⟩
    · simp [flatRead, f0, f1', f2', f3']; omega
    · have hd : delegateReadMemory x 32 s
          = (.ok (.int ((b0 ||| (b1 <<< 8) ||| (b2 <<< 16) ||| (b3 <<< 24) : Nat) : Int)), s) := by
        unfold delegateReadMemory
        rw [hfm]; simp only [show (32 = 8) = False by simp, show (32 = 16) = False by simp, if_false, if_true]
        rw [getBytes_cons d0, getBytes_cons d1, getBytes_cons d2, getBytes_cons d3, getBytes_zero]; rfl
      rw [bind_ok hd]
      show (init (.int ((b0 ||| (b1 <<< 8) ||| (b2 <<< 16) ||| (b3 <<< 24) : Nat) : Int)) (some ((32 : Nat) : Int)), s) = _
      rw [init_int_width, ofInt_nat, C21.word32 l0 l1 l2]

theorem byteOf_lt (v : Int) (i : Nat) : byteOf v i < 256 := by
  unfold byteOf
  have h0 := Int.emod_nonneg (v / 256 ^ i) (show (256 : Int) ≠ 0 by decide)
  have h1 := Int.emod_lt_of_pos (v / 256 ^ i) (show (0 : Int) < 256 by decide)
  omega

theorem leByte_eq_byteOf (v : Int) (i : Nat) : leByte v i = byteOf v i := by
  rw [C21.leByte_eq, byteOf, Nat.mul_comm, Int.pow_mul]; rfl

/-- The bytes written for `8 * n` bits. -/
theorem flat_eq_flatWrite {mem : List Region} (hm : MemOK mem) {x : Int} {n : Nat} {v : Int} (h0 : 0 < n)
    (hin : Inside mem x n) :
    flat (updMem x n ((List.range n).map (byteOf v)) mem) = flatWrite (flat mem) x n v := by
  funext y
  rw [flat_updMem hm (by simp) h0 hin]
  unfold flatWrite
  by_cases h : x ≤ y ∧ y < x + n
  · rw [if_pos h, if_pos h, List.getElem?_map, List.getElem?_range (by omega)]; rfl
  · rw [if_neg h, if_neg h]

theorem findMem_inside {mem : List Region} (hm : MemOK mem) {x : Int} {n : Nat} (h0 : 0 < n) (hin : Inside mem x n) :
    ∃ p, findMem mem x = some p := by
  obtain ⟨m, -, hf, -⟩ := find_inside hm h0 hin
  exact ⟨_, by unfold findMem; rw [hf]; rfl⟩

/-- Writing `8 * n` bits whose bytes are all in one region. -/
theorem writeMemory_inside {s : Machine} (hm : MemOK s.mem) {addr value : Num} {n : Nat}
    (hn : n = 1 ∧ 0 ≤ value.toInt ∧ value.toInt < 256 ∨ n = 2 ∨ n = 4) (hin : Inside s.mem addr.toInt n) :
    writeMemory addr value (8 * n) s =
      (.ok (), { s with mem := updMem addr.toInt n ((List.range n).map (byteOf value.toInt)) s.mem }) := by
  obtain ⟨p, hp⟩ := findMem_inside hm (by omega) hin
  unfold writeMemory delegateWriteMemory
  rw [hp]
  simp only
  have hw : ∀ k, ((List.range k).map (leByte value.toInt)) = (List.range k).map (byteOf value.toInt) := by
    intro k; apply List.map_congr_left; intro i _; exact leByte_eq_byteOf _ _
  rcases hn with ⟨rfl, hv⟩ | rfl | rfl
  · simp only [Nat.mul_one, if_true]
    rw [if_pos hv]
    have : (List.range 1).map (byteOf value.toInt) = [value.toInt.toNat] := by
      simp only [List.range_one, List.map_cons, List.map_nil, byteOf, Int.pow_zero, Int.ediv_one]
      rw [Int.emod_eq_of_lt hv.1 hv.2]
    rw [this]
  · simp only [show (8 * 2 = 8) = False by simp, show (8 * 2 = 16) = True by simp, if_false, if_true, le16ToBytes, hw]
  · simp only [show (8 * 4 = 8) = False by simp, show (8 * 4 = 16) = False by simp,
        show (8 * 4 = 32) = True by simp, if_false, if_true, le32ToBytes, hw]

theorem inside_updMem {mem : List Region} {x y : Int} {n k : Nat} {new : List Nat} :
    Inside (updMem x n new mem) y k ↔ Inside mem y k := by
  have h := updMem_bounds x n new mem
  have key : ∀ m : List Region, Inside m y k ↔ ∃ p ∈ m.map (fun r => (r.start, r.stop)), p.1 ≤ y ∧ y + k - 1 ≤ p.2 := by
    intro m
    constructor
    · rintro ⟨r, hr, h⟩; exact ⟨_, List.mem_map.2 ⟨r, hr, rfl⟩, h⟩
    · rintro ⟨p, hp, h⟩
      obtain ⟨r, hr, rfl⟩ := List.mem_map.1 hp
      exact ⟨r, hr, h⟩
  rw [key, key, h]

theorem flatRead_congr {f g : Flat} : ∀ {n : Nat} {x : Int}, (∀ y, x ≤ y → y < x + n → f y = g y) →
    flatRead f x n = flatRead g x n
  | 0, _, _ => rfl
  | n + 1, x, h => by
    simp only [flatRead]
    rw [h x (by omega) (by omega), flatRead_congr (n := n) (x := x + 1) (fun y h1 h2 => h y (by omega) (by omega))]

theorem flatRead_bytes {f : Flat} {v : Int} : ∀ {n : Nat} {x : Int} {j : Nat},
    (∀ i : Nat, i < n → f (x + i) = some (byteOf v (j + i))) →
    flatRead f x n = some (v / 256 ^ j % 256 ^ n).toNat
  | 0, x, j, _ => by simp [flatRead]
  | n + 1, x, j, h => by
    simp only [flatRead]
    have h0 := h 0 (by omega)
    simp only [Int.natCast_zero, Int.add_zero, Nat.add_zero] at h0
    rw [h0, flatRead_bytes (n := n) (x := x + 1) (j := j + 1) (v := v) (fun i hi => by
      have := h (i + 1) (by omega)
      rw [show x + 1 + (i : Int) = x + ((i + 1 : Nat) : Int) by omega, this]
      congr 2; omega)]
    simp only [byteOf]
    congr 1
    have hp : (0 : Int) < 256 ^ n := Int.pow_pos (by decide)
    have hq : (0 : Int) ≤ 256 ^ j := Int.le_of_lt (Int.pow_pos (by decide))
    rw [Int.pow_succ, ← Int.ediv_ediv_of_nonneg hq]
    generalize v / 256 ^ j = w
    rw [Int.pow_succ (256 : Int) n, Int.mul_comm (256 ^ n : Int) 256]
    have e2 : w % (256 * 256 ^ n) = w % 256 + 256 * (w / 256 % 256 ^ n) := by
      rw [Int.emod_def, Int.emod_def w 256, Int.emod_def (w / 256),
        Int.ediv_ediv_of_nonneg (show (0 : Int) ≤ 256 by decide), Int.mul_assoc]
      omega
    rw [e2]
    have := Int.emod_nonneg (w / 256) (show (256 : Int) ^ n ≠ 0 by omega)
    have := Int.emod_nonneg w (show (256 : Int) ≠ 0 by decide)
    omega

theorem flatRead_flatWrite (f : Flat) (x : Int) (n : Nat) (v : Int) :
    flatRead (flatWrite f x n v) x n = some (v % 256 ^ n).toNat := by
  have := flatRead_bytes (f := flatWrite f x n v) (v := v) (n := n) (x := x) (j := 0) (fun i hi => by
    unfold flatWrite
    rw [if_pos (by omega)]
    congr 2; omega)
  rw [this]; simp

end Verif
