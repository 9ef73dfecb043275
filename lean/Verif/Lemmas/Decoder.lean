import Verif.Decoder

/-!
# Lemmas on sorting, grouping and walking decoders
-/

namespace Verif

/-! ### Sorting -/

/-- More fixed bits first. -/
abbrev Heavier (d e : Dec) : Prop := e.weight ≤ d.weight

theorem insertDec_perm (d : Dec) : ∀ s, (insertDec d s).Perm (d :: s)
  | [] => .refl _
  | e :: t => by
    unfold insertDec
    split
    · exact ((insertDec_perm d t).cons e).trans (.swap d e t)
    · exact .refl _

theorem sortDecs_perm : ∀ s, (sortDecs s).Perm s
  | [] => .refl _
  | d :: t => (insertDec_perm d _).trans ((sortDecs_perm t).cons d)

theorem mem_insertDec {d e : Dec} {s : List Dec} : e ∈ insertDec d s ↔ e = d ∨ e ∈ s := by
  rw [(insertDec_perm d s).mem_iff]; simp

theorem mem_sortDecs {e : Dec} {s : List Dec} : e ∈ sortDecs s ↔ e ∈ s := (sortDecs_perm s).mem_iff

theorem length_sortDecs (s : List Dec) : (sortDecs s).length = s.length := (sortDecs_perm s).length_eq

theorem insertDec_sorted (d : Dec) : ∀ {s : List Dec}, s.Pairwise Heavier → (insertDec d s).Pairwise Heavier
  | [], _ => by simp [insertDec]
  | e :: t, h => by
    have hc := List.pairwise_cons.mp h
    unfold insertDec
    split
    · next hlt =>
      refine List.pairwise_cons.mpr ⟨?_, insertDec_sorted d hc.2⟩
      intro x hx
      rcases mem_insertDec.mp hx with rfl | hx
      · exact Nat.le_of_lt hlt
      · exact hc.1 x hx
    · next hge =>
      refine List.pairwise_cons.mpr ⟨?_, h⟩
      intro x hx
      have hge : e.weight ≤ d.weight := by omega
      rcases List.mem_cons.mp hx with rfl | hx
      · exact hge
      · exact Nat.le_trans (hc.1 x hx) hge

theorem sortDecs_sorted : ∀ s : List Dec, (sortDecs s).Pairwise Heavier
  | [] => .nil
  | d :: t => insertDec_sorted d (sortDecs_sorted t)

theorem sortDecs_of_sorted : ∀ {s : List Dec}, s.Pairwise Heavier → sortDecs s = s
  | [], _ => rfl
  | d :: t, h => by
    have hc := List.pairwise_cons.mp h
    rw [sortDecs, sortDecs_of_sorted hc.2]
    cases t with
    | nil => rfl
    | cons e t =>
      have he : e.weight ≤ d.weight := hc.1 e (by simp)
      rw [insertDec, if_neg (by omega)]

/-- Equal keys keep their order. -/
theorem insertDec_filter (k : Nat) (d : Dec) : ∀ s : List Dec, 
    (insertDec d s).filter (fun e => e.weight = k) = (d :: s).filter (fun e => e.weight = k)
  | [] => rfl
  | e :: t => by
    unfold insertDec
    split
    · next hlt =>
      have ih := insertDec_filter k d t
      simp only [List.filter_cons] at ih ⊢
      rw [ih]
      by_cases h1 : d.weight = k <;> by_cases h2 : e.weight = k <;> simp [h1, h2]
      omega
    · rfl

theorem sortDecs_filter (k : Nat) : ∀ s : List Dec,
    (sortDecs s).filter (fun e => e.weight = k) = s.filter (fun e => e.weight = k)
  | [] => rfl
  | d :: t => by
    rw [sortDecs, insertDec_filter]
    simp only [List.filter_cons, sortDecs_filter k t]

/-- A list sorted by weight is determined by its parts of equal weight. -/
theorem sorted_unique : ∀ {s t : List Dec}, s.Pairwise Heavier → t.Pairwise Heavier →
    (∀ k, s.filter (fun e => e.weight = k) = t.filter (fun e => e.weight = k)) → s = t
  | [], [], _, _, _ => rfl
  | [], e :: t, _, _, h => by have := h e.weight; simp at this
  | d :: s, [], _, _, h => by have := h d.weight; simp at this
  | d :: s, e :: t, hs, ht, h => by
    have hsc := List.pairwise_cons.mp hs
    have htc := List.pairwise_cons.mp ht
    have hde : d.weight = e.weight := by
      have h1 : d ∈ (e :: t).filter (fun x => x.weight = d.weight) := by
        rw [← h d.weight]; simp
      have h2 : e ∈ (d :: s).filter (fun x => x.weight = e.weight) := by
        rw [h e.weight]; simp
      have h1 := (List.mem_filter.mp h1).1
      have h2 := (List.mem_filter.mp h2).1
      have a1 : d.weight ≤ e.weight := by
        rcases List.mem_cons.mp h1 with rfl | h1
        · exact Nat.le_refl _
        · exact htc.1 d h1
      have a2 : e.weight ≤ d.weight := by
        rcases List.mem_cons.mp h2 with rfl | h2
        · exact Nat.le_refl _
        · exact hsc.1 e h2
      omega
    have h0 := h d.weight
    simp only [List.filter_cons, hde, decide_true, if_true, List.cons.injEq] at h0
    obtain ⟨rfl, _⟩ := h0
    congr 1
    refine sorted_unique hsc.2 htc.2 fun k => ?_
    have hk := h k
    simp only [List.filter_cons] at hk
    split at hk
    · exact (List.cons.inj hk).2
    · exact hk

/-! ### Searching -/

theorem tryAll_filter {w : Nat} {a : Int} {P : Dec → Bool} : ∀ {s : List Dec},
    (∀ d ∈ s, d.check w = true → P d = true) → tryAll w a (s.filter P) = tryAll w a s
  | [], _ => rfl
  | d :: t, h => by
    have ih := tryAll_filter (a := a) (s := t) fun d hd => h d (List.mem_cons_of_mem _ hd)
    rw [List.filter_cons]
    split
    · simp only [tryAll]; rw [ih]
    · next hp =>
      have : d.check w = false := by
        cases hc : d.check w with
        | false => rfl
        | true => exact absurd (h d (by simp) hc) hp
      rw [ih, tryAll, this]; simp

/-! ### Common mask and groups -/

theorem foldl_and_sub (l : List Dec) : ∀ (m0 m : Nat), m &&& m0 = m → (∀ d ∈ l, m &&& d.fmt.mask = m) →
    m &&& l.foldl (fun a e => a &&& e.fmt.mask) m0 = m := by
  induction l with
  | nil => intro m0 m h _; exact h
  | cons e t ih =>
    intro m0 m h hl
    refine ih _ _ ?_ fun d hd => hl d (List.mem_cons_of_mem _ hd)
    rw [← Nat.and_assoc, h, hl e (by simp)]

theorem foldl_and_le (l : List Dec) : ∀ (m0 : Nat),
    l.foldl (fun a e => a &&& e.fmt.mask) m0 &&& m0 = l.foldl (fun a e => a &&& e.fmt.mask) m0 ∧
    ∀ d ∈ l, l.foldl (fun a e => a &&& e.fmt.mask) m0 &&& d.fmt.mask = l.foldl (fun a e => a &&& e.fmt.mask) m0 := by
  induction l with
  | nil => intro m0; simp
  | cons e t ih =>
    intro m0
    obtain ⟨h1, h2⟩ := ih (m0 &&& e.fmt.mask)
    simp only [List.foldl_cons]
    refine ⟨?_, ?_⟩
    · conv => lhs; rw [← h1]
      rw [Nat.and_assoc, Nat.and_assoc, Nat.and_comm _ m0, ← Nat.and_assoc m0, Nat.and_self, h1]
    · intro d hd
      rcases List.mem_cons.mp hd with rfl | hd
      · conv => lhs; rw [← h1]
        rw [Nat.and_assoc, Nat.and_assoc, Nat.and_self, h1]
      · exact h2 d hd

/-- The common mask is part of every mask. -/
theorem commonMask_sub {s : List Dec} {d : Dec} (h : d ∈ s) : commonMask s &&& d.fmt.mask = commonMask s := by
  cases s with
  | nil => cases h
  | cons e t =>
    rcases List.mem_cons.mp h with rfl | h
    · exact (foldl_and_le t d.fmt.mask).1
    · exact (foldl_and_le t e.fmt.mask).2 d h

/-- It is the largest such mask. -/
theorem commonMask_max {s : List Dec} {m : Nat} (hs : s ≠ []) (h : ∀ d ∈ s, m &&& d.fmt.mask = m) :
    m &&& commonMask s = m := by
  cases s with
  | nil => exact absurd rfl hs
  | cons e t => exact foldl_and_sub t _ _ (h e (by simp)) fun d hd => h d (List.mem_cons_of_mem _ hd)

theorem commonMask_perm {s t : List Dec} (h : s.Perm t) : commonMask s = commonMask t := by
  by_cases hs : s = []
  · subst hs; rw [h.nil_eq]
  · have ht : t ≠ [] := by rintro rfl; exact hs h.eq_nil
    have h1 := commonMask_max ht (m := commonMask s) fun d hd => commonMask_sub (h.mem_iff.mpr hd)
    have h2 := commonMask_max hs (m := commonMask t) fun d hd => commonMask_sub (h.mem_iff.mp hd)
    rw [← h1, Nat.and_comm, h2]

theorem mem_groupKeys {cm k : Nat} : ∀ {s : List Dec}, k ∈ groupKeys cm s ↔ ∃ d ∈ s, d.fmt.mtch &&& cm = k
  | [] => by simp [groupKeys]
  | d :: t => by
    rw [groupKeys, List.mem_cons, List.mem_filter, mem_groupKeys (s := t)]
    constructor
    · rintro (rfl | ⟨⟨e, he, rfl⟩, _⟩)
      · exact ⟨d, by simp, rfl⟩
      · exact ⟨e, by simp [he], rfl⟩
    · rintro ⟨e, he, rfl⟩
      rcases List.mem_cons.mp he with rfl | he
      · exact .inl rfl
      · by_cases hk : e.fmt.mtch &&& cm = d.fmt.mtch &&& cm
        · exact .inl hk
        · exact .inr ⟨⟨e, he, rfl⟩, by simpa using hk⟩

theorem groupKeys_nodup {cm : Nat} : ∀ {s : List Dec}, (groupKeys cm s).Nodup
  | [] => .nil
  | d :: t => by
    rw [groupKeys, List.nodup_cons]
    exact ⟨by simp, (groupKeys_nodup (s := t)).sublist List.filter_sublist⟩

theorem groupKeys_perm {cm : Nat} {s t : List Dec} (h : s.Perm t) : (groupKeys cm s).Perm (groupKeys cm t) := by
  rw [List.perm_ext_iff_of_nodup groupKeys_nodup groupKeys_nodup]
  intro k
  rw [mem_groupKeys, mem_groupKeys]
  simp [h.mem_iff]

theorem group_length_lt {cm k : Nat} {s : List Dec} (hk : (groupKeys cm s).length ≠ 1) (hs : s ≠ []) :
    (group cm k s).length < s.length := by
  have hle : (group cm k s).length ≤ s.length := List.length_filter_le ..
  rcases Nat.lt_or_eq_of_le hle with h | h
  · exact h
  exfalso
  have hall : ∀ d ∈ s, d.fmt.mtch &&& cm = k := by
    have := (List.length_filter_eq_length_iff (p := fun d : Dec => decide (d.fmt.mtch &&& cm = k))).mp h
    simpa using this
  apply hk
  have hmem : ∀ j ∈ groupKeys cm s, j = k := by
    intro j hj
    obtain ⟨d, hd, rfl⟩ := mem_groupKeys.mp hj
    exact hall d hd
  have hnd := groupKeys_nodup (cm := cm) (s := s)
  cases s with
  | nil => exact absurd rfl hs
  | cons d t =>
    cases hg : groupKeys cm (d :: t) with
    | nil => simp [groupKeys] at hg
    | cons a l =>
      cases l with
      | nil => rfl
      | cons b l =>
        rw [hg] at hmem hnd
        have h1 := hmem a (by simp)
        have h2 := hmem b (by simp)
        subst h1; subst h2
        simp at hnd

theorem check_group {d : Dec} {w cm : Nat} (hc : d.check w = true) (hm : cm &&& d.fmt.mask = cm) :
    d.fmt.mtch &&& cm = w &&& cm := by
  have : w &&& d.fmt.mask = d.fmt.mtch := by simpa [Dec.check, Fmt.check] using hc
  rw [← this, Nat.and_assoc, Nat.and_comm _ cm, hm]

/-! ### The tree -/

/-- More depth than decoders is not used. -/
theorem buildTree_fuel : ∀ (n : Nat) (ds : List Dec), ds.length ≤ n → buildTree n ds = buildTree (n + 1) ds
  | 0, ds, h => by
    have : ds = [] := List.length_eq_zero_iff.mp (by omega)
    subst this; rfl
  | n + 1, ds, h => by
    have hl := length_sortDecs ds
    rw [buildTree, buildTree]
    simp only
    split
    · rfl
    · next h2 =>
      split
      · rfl
      · split
        · rfl
        · next hk =>
          have hne : sortDecs ds ≠ [] := by intro h0; rw [h0] at h2; simp at h2
          congr 1
          funext k
          have hlt := group_length_lt (k := k) hk hne
          exact buildTree_fuel n _ (by omega)

/-- The result of a walk: that of the search, or `AttributeError` with nothing to find. -/
theorem walk_buildTree (w : Nat) (a : Int) : ∀ (n : Nat) (ds : List Dec), ds.Pairwise Heavier →
    ((buildTree n ds).walk w a).1 = tryAll w a ds ∨
      (((buildTree n ds).walk w a).1 = .error .attributeError ∧ ∀ d ∈ ds, d.check w = false)
  | 0, ds, _ => .inl rfl
  | n + 1, ds, h => by
    rw [buildTree, sortDecs_of_sorted h]
    simp only
    split
    · exact .inl rfl
    · split
      · exact .inl rfl
      · split
        · exact .inl rfl
        · rw [Tree.walk]
          simp only
          split
          · next hk =>
            have hg : (group (commonMask ds) (w &&& commonMask ds) ds).Pairwise Heavier := h.filter _
            have hP : ∀ d ∈ ds, d.check w = true →
                decide (d.fmt.mtch &&& commonMask ds = w &&& commonMask ds) = true := by
              intro d hd hc
              simpa using check_group hc (commonMask_sub hd)
            rcases walk_buildTree w a n _ hg with ih | ⟨ih, hn⟩
            · left
              rw [ih]
              exact tryAll_filter hP
            · right
              refine ⟨ih, fun d hd => ?_⟩
              cases hc : d.check w with
              | false => rfl
              | true =>
                have := hn d (List.mem_filter.mpr ⟨hd, hP d hd hc⟩)
                rw [hc] at this; cases this
          · next hk =>
            right
            refine ⟨rfl, fun d hd => ?_⟩
            cases hc : d.check w with
            | false => rfl
            | true =>
              exact absurd (mem_groupKeys.mpr ⟨d, hd, check_group hc (commonMask_sub hd)⟩) hk

theorem buildTree_sort (n : Nat) (ds : List Dec) (h : ds.length ≤ n) : buildTree n ds = buildTree n (sortDecs ds) := by
  cases n with
  | zero =>
    have : ds = [] := List.length_eq_zero_iff.mp (by omega)
    subst this; rfl
  | succ n => simp only [buildTree, sortDecs_of_sorted (sortDecs_sorted ds)]

theorem tryAll_none {w : Nat} {a : Int} : ∀ {s : List Dec}, (∀ d ∈ s, d.check w = false) →
    tryAll w a s = .error .undefinedInstruction
  | [], _ => rfl
  | d :: t, h => by
    rw [tryAll, h d (by simp), if_neg (by simp)]
    exact tryAll_none fun e he => h e (List.mem_cons_of_mem _ he)

/-! ### Repeated walks -/

/-- A walk leaves a tree that walks the same. -/
theorem walk_walk (w : Nat) (a : Int) (w' : Nat) (a' : Int) :
    ∀ t : Tree, ((t.walk w a).2.walk w' a').1 = (t.walk w' a').1
  | .leaf ds => rfl
  | .hole => rfl
  | .node mask keys child => by
    have ih := walk_walk w a w' a' (child (w &&& mask))
    by_cases hk : w &&& mask ∈ keys
    · by_cases hk' : w' &&& mask ∈ keys
      · by_cases he : w' &&& mask = w &&& mask
        · simp only [Tree.walk, he, hk, if_true, ih]
        · simp only [Tree.walk, hk, hk', if_true, if_neg he]
      · simp only [Tree.walk, hk, hk', if_true, if_false]
    · by_cases hk' : w' &&& mask ∈ keys
      · have he : w' &&& mask ≠ w &&& mask := by intro h; rw [h] at hk'; exact hk hk'
        simp only [Tree.walk, hk, hk', if_true, if_false, List.mem_append, List.mem_singleton, he, true_or]
      · by_cases he : w' &&& mask = w &&& mask
        · simp only [Tree.walk, he, hk, if_false, if_true, List.mem_append, List.mem_singleton, or_true]
        · simp only [Tree.walk, hk, hk', he, if_false, List.mem_append, List.mem_singleton, or_self]

end Verif
