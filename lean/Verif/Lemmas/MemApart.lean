import Verif.Lemmas.Changes

/-!
# Accesses to different bytes of memory
-/

namespace Verif
open BS CpuM Thumb Exec

/-- Two ranges of addresses, each given by its start and its length, have no address in
common. -/
def RangesApart (x : Int) (n : Nat) (y : Int) (k : Nat) : Prop := x + n ≤ y ∨ y + k ≤ x

theorem RangesApart.symm {x y : Int} {n k : Nat} (h : RangesApart x n y k) : RangesApart y k x n := h.elim .inr .inl

theorem put_apart_get {data new : List Nat} {i n j k : Nat} (hi : i ≤ data.length) (hn : new.length = n)
    (h : i + n ≤ j ∨ j + k ≤ i) : getBytes (putBytes data i n new) j k = getBytes data j k := by
  unfold getBytes
  apply List.ext_getElem?
  intro t
  rw [List.getElem?_take, List.getElem?_take]
  by_cases ht : t < k
  · rw [if_pos ht, if_pos ht, List.getElem?_drop, List.getElem?_drop]
    rcases h with h | h
    · unfold putBytes
      rw [List.append_assoc, List.getElem?_append_right (by rw [List.length_take]; omega), List.getElem?_append_right (by rw [List.length_take]; omega),
        List.getElem?_drop, List.length_take]
      congr 1
      omega
    · rw [putBytes_getElem_inside _ _ _ _ _ hi (by omega) hn, if_neg (by omega)]
  · rw [if_neg ht, if_neg ht]

theorem put_comm {data new new' : List Nat} {i n j k : Nat} (hj : j < data.length) (hn : new.length = n)
    (h : i + n ≤ j) : putBytes (putBytes data i n new) j k new' = putBytes (putBytes data j k new') i n new := by
  unfold putBytes
  have e1 : (data.take i ++ new ++ data.drop (i + n)).take j = data.take i ++ new ++ (data.drop (i + n)).take (j - (i + n)) := by
    rw [List.take_append, List.take_of_length_le (by simp; omega)]
    congr 2
    simp; omega
  have e2 : (data.take i ++ new ++ data.drop (i + n)).drop (j + k) = data.drop (j + k) := by
    rw [List.drop_append, List.drop_of_length_le (by simp; omega), List.nil_append, List.drop_drop]
    congr 1
    simp; omega
  have e3 : (data.take j ++ new' ++ data.drop (j + k)).take i = data.take i := by
    rw [List.append_assoc, List.take_append, List.take_take, show i - (data.take j).length = 0 by simp; omega]
    simp; omega
  have e4 : (data.take j ++ new' ++ data.drop (j + k)).drop (i + n) = (data.drop (i + n)).take (j - (i + n)) ++ new' ++ data.drop (j + k) := by
    rw [List.append_assoc, List.drop_append, List.drop_take, show i + n - (data.take j).length = 0 by simp; omega]
    simp
  rw [e1, e2, e3, e4]
  simp only [List.append_assoc]

theorem has_data (m : Region) (d : List Nat) (y : Int) : Region.has { m with data := d } y = m.has y := rfl

/-- The bytes read at an address after a write elsewhere. -/
theorem get_updMem {x y : Int} {n k : Nat} {new : List Nat} (hn : new.length = n) (h : RangesApart x n y k) : ∀ {mem : List Region}, MemFull mem →
    (findMem (updMem x n new mem) y).map (fun p => getBytes p.1.data p.2 k) = (findMem mem y).map fun p => getBytes p.1.data p.2 k
  | [], _ => rfl
  | m :: t, hf => by
    have hm := hf m List.mem_cons_self
    have ih := get_updMem hn h (mem := t) fun r hr => hf r (List.mem_cons_of_mem _ hr)
    unfold findMem at ih ⊢
    unfold updMem
    by_cases hx : m.has x = true
    · rw [if_pos hx, List.find?_cons, List.find?_cons]
      by_cases hy : m.has y = true
      · have hx' := has_iff.1 hx
        have hy' := has_iff.1 hy
        rw [has_data, hy]
        simp only [Option.map_some]
        rw [put_apart_get (by omega) hn (by unfold RangesApart at h; omega)]
      · rw [has_data, show m.has y = false by simpa using hy]
    · rw [if_neg hx, List.find?_cons, List.find?_cons]
      cases m.has y with
      | true => rfl
      | false => exact ih

/-- What a read gives, in terms of the bytes at the address. -/
def readOf (n : Nat) : Option (List Nat) → PyRes Nat
  | none => .ok 0
  | some l => if n = 1 then .ok (bytesValue l 0 0) else if n = 2 then bytesToLe16 l else bytesToLe32 l

theorem peek_readOf (mem : List Region) (x : Int) {n : Nat} (hn : n = 1 ∨ n = 2 ∨ n = 4) :
    peek mem x n = readOf n ((findMem mem x).map fun p => getBytes p.1.data p.2 n) := by
  unfold peek
  cases findMem mem x with
  | none => rfl
  | some p =>
    obtain ⟨m, off⟩ := p
    rcases hn with rfl | rfl | rfl <;> rfl

/-- A write elsewhere does not change what a read gives. -/
theorem peek_poke_apart {mem : List Region} (hm : MemFull mem) {x y : Int} {n k : Nat} (hk : k = 1 ∨ k = 2 ∨ k = 4)
    (h : RangesApart x n y k) (v : Int) : peek (poke mem x n v) y k = peek mem y k := by
  rw [peek_readOf _ _ hk, peek_readOf _ _ hk]
  unfold poke
  rw [get_updMem (by simp) h hm]

theorem updMem_comm {x y : Int} {n k : Nat} {new new' : List Nat} (hn : new.length = n) (hk : new'.length = k)
    (h : RangesApart x n y k) : ∀ {mem : List Region}, MemFull mem →
    updMem y k new' (updMem x n new mem) = updMem x n new (updMem y k new' mem)
  | [], _ => rfl
  | m :: t, hf => by
    have hm := hf m List.mem_cons_self
    have ih := updMem_comm hn hk h (mem := t) fun r hr => hf r (List.mem_cons_of_mem _ hr)
    by_cases hx : m.has x = true <;> by_cases hy : m.has y = true
    · have hx' := has_iff.1 hx
      have hy' := has_iff.1 hy
      simp only [updMem, has_data, hx, hy, if_true]
      unfold RangesApart at h
      rcases h with h | h
      · rw [put_comm (by omega) hn (by omega)]
      · rw [put_comm (by omega) hk (by omega)]
    · simp [updMem, has_data, hx, hy]
    · simp [updMem, has_data, hx, hy]
    · simp [updMem, hx, hy, ih]

/-- Writes to different bytes can be exchanged. -/
theorem poke_comm {mem : List Region} (hm : MemFull mem) {x y : Int} {n k : Nat} (h : RangesApart x n y k) (v w : Int) :
    poke (poke mem x n v) y k w = poke (poke mem y k w) x n v := updMem_comm (by simp) (by simp) h hm

/-- Several writes: address, number of bytes and value of each. -/
def pokes (mem : List Region) : List (Word × Nat × Word) → List Region
  | [] => mem
  | (x, n, v) :: l => pokes (poke mem x.toNat n v.toNat) l

theorem pokes_full : ∀ (l : List (Word × Nat × Word)) {mem : List Region}, MemFull mem → MemFull (pokes mem l)
  | [], _, h => h
  | (_, _, _) :: l, _, h => pokes_full l (poke_full h _ _ _)

/-- All of these writes are apart from this range. -/
def WritesApart (l : List (Word × Nat × Word)) (x : Word) (n : Nat) : Prop := ∀ w ∈ l, RangesApart w.1.toNat w.2.1 x.toNat n

theorem peek_pokes {x : Word} {k : Nat} (hk : k = 1 ∨ k = 2 ∨ k = 4) : ∀ (l : List (Word × Nat × Word)) {mem : List Region}, MemFull mem →
    WritesApart l x k → peek (pokes mem l) x.toNat k = peek mem x.toNat k
  | [], _, _, _ => rfl
  | (y, n, v) :: l, mem, hm, h => by
    unfold pokes
    rw [peek_pokes hk l (poke_full hm _ _ _) fun w hw => h w (List.mem_cons_of_mem _ hw),
      peek_poke_apart hm hk (h _ List.mem_cons_self)]

theorem pokes_poke {x : Word} {k : Nat} (v : Word) : ∀ (l : List (Word × Nat × Word)) {mem : List Region}, MemFull mem →
    WritesApart l x k → pokes (poke mem x.toNat k v.toNat) l = poke (pokes mem l) x.toNat k v.toNat
  | [], _, _, _ => rfl
  | (y, n, w) :: l, mem, hm, h => by
    unfold pokes
    rw [poke_comm hm (h _ List.mem_cons_self).symm, pokes_poke v l (poke_full hm _ _ _) fun w hw => h w (List.mem_cons_of_mem _ hw)]

/-- Two groups of writes to different bytes can be exchanged. -/
theorem pokes_comm : ∀ (l l' : List (Word × Nat × Word)) {mem : List Region}, MemFull mem → (∀ w ∈ l', WritesApart l w.1 w.2.1) →
    pokes (pokes mem l) l' = pokes (pokes mem l') l
  | _, [], _, _, _ => rfl
  | l, (y, n, w) :: l', mem, hm, h => by
    show pokes (poke (pokes mem l) y.toNat n w.toNat) l' = pokes (pokes (poke mem y.toNat n w.toNat) l') l
    rw [← pokes_poke w l hm (h _ List.mem_cons_self),
      pokes_comm l l' (poke_full hm _ _ _) fun v hv => h v (List.mem_cons_of_mem _ hv)]

/-! ### The same writes in two memories -/

/-- Two memories with the same regions, whatever they hold. -/
def SameMap (m m' : List Region) : Prop := m.map (fun r => (r.start, r.stop)) = m'.map fun r => (r.start, r.stop)

theorem SameMap.nil {m : List Region} (h : SameMap [] m) : m = [] := by
  unfold SameMap at h
  simpa using h.symm

theorem SameMap.cons {r : Region} {t m : List Region} (h : SameMap (r :: t) m) :
    ∃ r' t', m = r' :: t' ∧ r'.start = r.start ∧ r'.stop = r.stop ∧ SameMap t t' := by
  unfold SameMap at h
  cases m with
  | nil => simp at h
  | cons r' t' =>
    simp only [List.map_cons, List.cons.injEq, Prod.mk.injEq] at h
    exact ⟨r', t', rfl, h.1.1.symm, h.1.2.symm, h.2⟩

theorem SameMap.mk {r r' : Region} {t t' : List Region} (h1 : r'.start = r.start) (h2 : r'.stop = r.stop) (h : SameMap t t') :
    SameMap (r :: t) (r' :: t') := by
  unfold SameMap at h ⊢
  simp [h1, h2, h]

theorem updMem_alike {x : Int} {n : Nat} {new : List Nat} (hn : new.length = n) : ∀ {m m' : List Region}, MemFull m → MemFull m' → SameMap m m' →
    SameMap (updMem x n new m) (updMem x n new m') ∧ ∀ y, flat (updMem x n new m) y = flat (updMem x n new m') y ∨
      (flat (updMem x n new m) y = flat m y ∧ flat (updMem x n new m') y = flat m' y)
  | [], m', _, _, h => by
    obtain rfl := h.nil
    exact ⟨h, fun _ => .inl rfl⟩
  | r :: t, m', hf, hf', h => by
    obtain ⟨r', t', rfl, h1, h2, h3⟩ := h.cons
    have hm := hf r List.mem_cons_self
    have hm' := hf' r' List.mem_cons_self
    have hh : ∀ y, r'.has y = r.has y := fun y => by
      apply Bool.eq_iff_iff.2
      rw [has_iff, has_iff, h1, h2]
    obtain ⟨i1, i2⟩ := updMem_alike hn (m := t) (m' := t') (fun r hr => hf r (List.mem_cons_of_mem _ hr))
      (fun r hr => hf' r (List.mem_cons_of_mem _ hr)) h3
    by_cases hx : r.has x = true
    · have hx' : r'.has x = true := by rw [hh, hx]
      simp only [updMem, hx, hx', if_true]
      refine ⟨SameMap.mk h1 h2 h3, fun y => ?_⟩
      have g := has_iff.1 hx
      rw [flat_cons, flat_cons, flat_cons, flat_cons]
      by_cases hy : r.has y = true
      · have hy' : r'.has y = true := by rw [hh, hy]
        have g2 := has_iff.1 hy
        rw [if_pos (by exact hy), if_pos (by exact hy'), if_pos hy, if_pos hy']
        simp only
        rw [putBytes_getElem_inside _ _ _ _ _ (by omega) (by omega) hn, putBytes_getElem_inside _ _ _ _ _ (by omega) (by omega) hn, h1]
        by_cases hr : (x - r.start).toNat ≤ (y - r.start).toNat ∧ (y - r.start).toNat < (x - r.start).toNat + n
        · rw [if_pos hr, if_pos hr]; exact .inl rfl
        · rw [if_neg hr, if_neg hr]; exact .inr ⟨rfl, rfl⟩
      · have hy' : ¬ r'.has y = true := by rw [hh]; exact hy
        rw [if_neg (by exact hy), if_neg (by exact hy'), if_neg hy, if_neg hy']
        exact .inr ⟨rfl, rfl⟩
    · have hx' : ¬ r'.has x = true := by rw [hh]; exact hx
      unfold updMem
      rw [if_neg hx, if_neg hx']
      refine ⟨SameMap.mk h1 h2 i1, fun y => ?_⟩
      rw [flat_cons, flat_cons, flat_cons, flat_cons, hh]
      cases r.has y with
      | true => exact .inr ⟨rfl, rfl⟩
      | false => exact i2 y

/-- The same writes in two memories: every byte has become equal or stayed in both. -/
theorem pokes_alike : ∀ (l : List (Word × Nat × Word)) {m m' : List Region}, MemFull m → MemFull m' → SameMap m m' →
    SameMap (pokes m l) (pokes m' l) ∧ ∀ y, flat (pokes m l) y = flat (pokes m' l) y ∨
      (flat (pokes m l) y = flat m y ∧ flat (pokes m' l) y = flat m' y)
  | [], _, _, _, _, h => ⟨h, fun _ => .inr ⟨rfl, rfl⟩⟩
  | (x, n, v) :: l, m, m', hm, hm', h => by
    obtain ⟨h1, h2⟩ := updMem_alike (x := x.toNat) (n := n) (new := (List.range n).map (byteOf v.toNat)) (by simp) hm hm' h
    obtain ⟨h3, h4⟩ := pokes_alike l (poke_full hm x.toNat n v.toNat) (poke_full hm' x.toNat n v.toNat) h1
    refine ⟨h3, fun y => ?_⟩
    rcases h4 y with e | ⟨e, e'⟩
    · exact .inl e
    · rcases h2 y with g | ⟨g, g'⟩
      · exact .inl (e.trans (g.trans e'.symm))
      · exact .inr ⟨e.trans g, e'.trans g'⟩

end Verif
