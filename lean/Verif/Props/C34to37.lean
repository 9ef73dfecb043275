import Verif.Lemmas.Decoder
import Verif.Lemmas.Table
import Verif.Props.C21to23
import Verif.Props.C33

/-!
# C34, C35, C37: the decoder tree
-/

namespace Verif
open BS

namespace C34

/-- The number of ones of a mask. -/
def ones (m : Nat) : Nat := ((List.range (m.log2 + 1)).filter fun k => m.testBit k).length

theorem weight_eq (d : Dec) : d.weight = ones d.fmt.mask :=
  C23.hamming_weight_spec _ _ Nat.lt_log2_self

/-- `s` is `ds` ordered by decreasing number of fixed bits, encodings with the same number
in the order of `ds`. -/
def InOrder (s ds : List Dec) : Prop :=
  s.Pairwise (fun d e => ones e.fmt.mask ≤ ones d.fmt.mask) ∧
    ∀ k, s.filter (fun d => ones d.fmt.mask = k) = ds.filter (fun d => ones d.fmt.mask = k)

/-- The decoder a linear search settles on: the first whose fixed bits match the word and
whose handler does not ask to go on. -/
def first (w : Nat) (a : Int) (s : List Dec) : Option Dec :=
  s.find? fun d => w &&& d.fmt.mask = d.fmt.mtch ∧ d.decode w a ≠ .error .decodeError

/-- The result of a linear search. -/
def search (w : Nat) (a : Int) (s : List Dec) : PyRes Instr :=
  match first w a s with
  | some d => d.decode w a
  | none => .error .undefinedInstruction

theorem tryAll_eq (w : Nat) (a : Int) : ∀ s, tryAll w a s = search w a s
  | [] => rfl
  | d :: t => by
    have ih := tryAll_eq w a t
    unfold search first at ih ⊢
    rw [tryAll, List.find?_cons]
    by_cases hc : w &&& d.fmt.mask = d.fmt.mtch
    · have : d.check w = true := by simpa [Dec.check, Fmt.check] using hc
      rw [if_pos this]
      cases hd : d.decode w a with
      | ok i => simp [hc, hd]
      | error e =>
        by_cases he : e = .decodeError
        · subst he; simp [ih]
        · have : decide (w &&& d.fmt.mask = d.fmt.mtch ∧ (Except.error e : PyRes Instr) ≠ .error .decodeError) = true := by
            simp [hc, he]
          rw [this]
          cases e <;> first | exact absurd rfl he | exact hd.symm
    · have : d.check w = false := by simpa [Dec.check, Fmt.check] using hc
      simp [this, hc, ih]

theorem inOrder_sort (ds : List Dec) : InOrder (sortDecs ds) ds := by
  constructor
  · exact (sortDecs_sorted ds).imp fun h => by rw [← weight_eq, ← weight_eq]; exact h
  · intro k
    have := sortDecs_filter k ds
    simpa only [weight_eq] using this

theorem inOrder_unique {s t ds : List Dec} (hs : InOrder s ds) (ht : InOrder t ds) : s = t := by
  refine sorted_unique ?_ ?_ fun k => ?_
  · exact hs.1.imp fun h => by rw [Heavier, weight_eq, weight_eq]; exact h
  · exact ht.1.imp fun h => by rw [Heavier, weight_eq, weight_eq]; exact h
  · have := (hs.2 k).trans (ht.2 k).symm
    simpa only [weight_eq] using this

/-- **C34.** Decoding through the tree gives what trying all decoders in order of
decreasing number of fixed bits gives, for every set of decoders and every word. The one
difference: a word that nothing matches may end in an `AttributeError` from the tree
instead of `UndefinedInstructionError`. -/
theorem tree_is_linear_search (ds s : List Dec) (hs : InOrder s ds) (w : Nat) (a : Int) :
    ((build ds).walk w a).1 = search w a s ∨
      (((build ds).walk w a).1 = .error .attributeError ∧ ∀ d ∈ ds, w &&& d.fmt.mask ≠ d.fmt.mtch) := by
  have : s = sortDecs ds := inOrder_unique hs (inOrder_sort ds)
  subst this
  rw [build, buildTree_sort _ _ (Nat.le_refl _), ← tryAll_eq]
  rcases walk_buildTree w a ds.length _ (sortDecs_sorted ds) with h | ⟨h1, h2⟩
  · exact .inl h
  · refine .inr ⟨h1, fun d hd => ?_⟩
    have := h2 d (mem_sortDecs.mpr hd)
    simpa [Dec.check, Fmt.check] using this

/-- **C34.** If any decoder matches the word, the results are the same. -/
theorem tree_is_linear_search_of_match (ds s : List Dec) (hs : InOrder s ds) (w : Nat) (a : Int)
    (h : ∃ d ∈ ds, w &&& d.fmt.mask = d.fmt.mtch) : ((build ds).walk w a).1 = search w a s := by
  rcases tree_is_linear_search ds s hs w a with h1 | ⟨_, h2⟩
  · exact h1
  · obtain ⟨d, hd, hm⟩ := h
    exact absurd hm (h2 d hd)

/-- **C34.** The order exists: the statements above are about every set of decoders. -/
theorem order_exists (ds : List Dec) : ∃ s, InOrder s ds := ⟨_, inOrder_sort ds⟩

/-- **C34.** Any successful search is found by the tree. -/
theorem tree_finds (ds s : List Dec) (hs : InOrder s ds) (w : Nat) (a : Int) (i : Instr)
    (h : search w a s = .ok i) : ((build ds).walk w a).1 = .ok i := by
  rcases tree_is_linear_search ds s hs w a with h1 | ⟨_, h2⟩
  · rw [h1, h]
  · exfalso
    have hn : first w a s = none := by
      unfold first
      rw [List.find?_eq_none]
      intro d hd hp
      have hd' : d ∈ ds := by
        have : d ∈ s.filter (fun e => ones e.fmt.mask = ones d.fmt.mask) := by simp [hd]
        rw [hs.2] at this
        exact (List.mem_filter.mp this).1
      exact h2 d hd' (of_decide_eq_true hp).1
    simp [search, hn] at h

/-- **C34.** The bound on the depth in the model is never reached: more depth gives the
same tree. -/
theorem depth_suffices (ds : List Dec) (n : Nat) (h : ds.length ≤ n) : buildTree n ds = build ds := by
  obtain ⟨k, rfl⟩ : ∃ k, n = ds.length + k := ⟨n - ds.length, by omega⟩
  clear h
  induction k with
  | zero => rfl
  | succ k ih => rw [← ih]; exact (buildTree_fuel (ds.length + k) ds (Nat.le_add_right ..)).symm

/-- The one difference is real, in the table of the program: `0xb100` (`cbz`) matches no
encoding, and the tree has no child for it. -/
theorem missing_child : (∀ d ∈ decoders, d.is32 = false → 0xb100 &&& d.fmt.mask ≠ d.fmt.mtch) ∧
    (trees.t16.walk 0xb100 0).1 = .error .attributeError := by
  constructor
  · rw [decoders_eq]; decide +kernel
  · rw [trees, decoders_eq]; decide +kernel

example : ((trees.t16).walk 0x1c4b 8).1 = .ok {
    klass := .addSub, mnemonic := c! "adds", word := 0x1c4b, is32 := false,
    address := 8, setflags := some .notInITBlock, useCarry := some false, sub := some false, d := some 3, n := some 1,
    imm32 := some (bv 32 1), operands := [.one (.reg 3 false), .one (.reg 1 false), .one .immAttr] } := by
  rw [trees, decoders_eq]; decide +kernel

end C34

namespace C35

/-- Two decoders never both decode the word, unless they have different numbers of fixed
bits: one of them does not match it or asks to go on. -/
def Apart (w : Nat) (a : Int) (d e : Dec) : Prop :=
  C34.ones d.fmt.mask = C34.ones e.fmt.mask → w &&& d.fmt.mask = d.fmt.mtch → w &&& e.fmt.mask = e.fmt.mtch →
    d.decode w a = .error .decodeError ∨ e.decode w a = .error .decodeError

theorem search_perm {s t : List Dec} {w : Nat} {a : Int} (hp : s.Perm t) (hs : s.Pairwise Heavier) (ht : t.Pairwise Heavier)
    (hA : s.Pairwise (Apart w a)) : C34.search w a s = C34.search w a t := by
  have key : ∀ l : List Dec, C34.first w a l = (l.filter fun d => w &&& d.fmt.mask = d.fmt.mtch ∧
      d.decode w a ≠ .error .decodeError).head? := fun l => by rw [List.head?_filter]; rfl
  have : (s.filter fun d => w &&& d.fmt.mask = d.fmt.mtch ∧ d.decode w a ≠ .error .decodeError) =
      t.filter fun d => w &&& d.fmt.mask = d.fmt.mtch ∧ d.decode w a ≠ .error .decodeError := by
    have hpf := hp.filter fun d => decide (w &&& d.fmt.mask = d.fmt.mtch ∧ d.decode w a ≠ .error .decodeError)
    have strict : (s.filter fun d => w &&& d.fmt.mask = d.fmt.mtch ∧ d.decode w a ≠ .error .decodeError).Pairwise
        (fun d e => e.weight < d.weight) := by
      have h1 := (hs.and hA).filter fun d => decide (w &&& d.fmt.mask = d.fmt.mtch ∧ d.decode w a ≠ .error .decodeError)
      refine h1.imp_of_mem ?_
      intro x y hx hy ⟨hxy, hap⟩
      have hx := (List.mem_filter.mp hx).2
      have hy := (List.mem_filter.mp hy).2
      simp only [decide_eq_true_eq] at hx hy
      rcases Nat.lt_or_eq_of_le hxy with hlt | heq
      · exact hlt
      · rcases hap (by rw [← C34.weight_eq, ← C34.weight_eq, heq]) hx.1 hy.1 with h | h
        · exact absurd h hx.2
        · exact absurd h hy.2
    have strict' : (t.filter fun d => w &&& d.fmt.mask = d.fmt.mtch ∧ d.decode w a ≠ .error .decodeError).Pairwise
        (fun d e => e.weight ≤ d.weight) := ht.filter _
    -- equal weight means the same element
    have inj : ∀ x y, x ∈ (s.filter fun d => w &&& d.fmt.mask = d.fmt.mtch ∧ d.decode w a ≠ .error .decodeError) →
        y ∈ (s.filter fun d => w &&& d.fmt.mask = d.fmt.mtch ∧ d.decode w a ≠ .error .decodeError) →
        x.weight = y.weight → x = y := by
      generalize (s.filter fun d => decide (w &&& d.fmt.mask = d.fmt.mtch ∧ d.decode w a ≠ .error .decodeError)) = l at strict
      intro x y hx hy hxy
      induction strict with
      | nil => cases hx
      | cons h _ ih =>
        rcases List.mem_cons.mp hx with rfl | hx
        · rcases List.mem_cons.mp hy with rfl | hy
          · rfl
          · have := h y hy; omega
        · rcases List.mem_cons.mp hy with hy | hy
          · rw [hy] at hxy ⊢
            have := h x hx; omega
          · exact ih hx hy
    refine hpf.eq_of_pairwise (le := fun d e : Dec => e.weight ≤ d.weight) ?_ (hs.filter _) strict'
    intro x y hx hy h1 h2
    exact inj x y hx (hpf.mem_iff.mpr hy) (by omega)
  unfold C34.search
  rw [key, key, this]

theorem walk_perm (w : Nat) (a : Int) : ∀ (n : Nat) (ds es : List Dec), ds.length ≤ n → ds.Perm es →
    ds.Pairwise (Apart w a) → ((buildTree n ds).walk w a).1 = ((buildTree n es).walk w a).1
  | 0, ds, es, h, hp, _ => by
    have : ds = [] := List.length_eq_zero_iff.mp (by omega)
    subst this
    rw [hp.nil_eq]
  | n + 1, ds, es, h, hp, hA => by
    have hps : (sortDecs ds).Perm (sortDecs es) := ((sortDecs_perm ds).trans hp).trans (sortDecs_perm es).symm
    have hsym : ∀ {x y : Dec}, Apart w a x y → Apart w a y x := fun h h1 h2 h3 => (h h1.symm h3 h2).symm
    have hAs : (sortDecs ds).Pairwise (Apart w a) := hA.perm (sortDecs_perm ds).symm hsym
    have leaf : (Tree.walk w a (.leaf (sortDecs ds))).1 = (Tree.walk w a (.leaf (sortDecs es))).1 := by
      simp only [Tree.walk]
      rw [C34.tryAll_eq, C34.tryAll_eq]
      exact search_perm hps (sortDecs_sorted ds) (sortDecs_sorted es) hAs
    rw [buildTree, buildTree]
    simp only
    rw [← hps.length_eq, ← commonMask_perm hps, ← (groupKeys_perm hps).length_eq]
    split
    · exact leaf
    · next h2 =>
      split
      · exact leaf
      · split
        · exact leaf
        · next hk =>
          rw [Tree.walk, Tree.walk]
          simp only
          have hne : sortDecs ds ≠ [] := by intro h0; rw [h0] at h2; simp at h2
          have hlt := group_length_lt (k := w &&& commonMask (sortDecs ds)) hk hne
          have hl := length_sortDecs ds
          by_cases hm : w &&& commonMask (sortDecs ds) ∈ groupKeys (commonMask (sortDecs ds)) (sortDecs ds)
          · rw [if_pos hm, if_pos ((groupKeys_perm hps).mem_iff.mp hm)]
            simp only
            exact walk_perm w a n _ _ (by omega) (hps.filter _) (hAs.filter _)
          · rw [if_neg hm, if_neg (fun h => hm ((groupKeys_perm hps).mem_iff.mpr h))]

/-- **C35.** For any set of decoders of which no two with the same number of fixed bits
both decode a word, the tree gives the same result in whatever order they are
registered. -/
theorem order_irrelevant (ds es : List Dec) (hp : ds.Perm es) (w : Nat) (a : Int) (h : ds.Pairwise (Apart w a)) :
    ((build ds).walk w a).1 = ((build es).walk w a).1 := by
  rw [build, build, ← hp.length_eq]
  exact walk_perm w a _ ds es (Nat.le_refl _) hp h

/-- Some fixed bit of both differs. -/
def clash (d e : Dec) : Bool := d.fmt.mtch &&& (d.fmt.mask &&& e.fmt.mask) != e.fmt.mtch &&& (d.fmt.mask &&& e.fmt.mask)

theorem clash_apart {d e : Dec} (h : clash d e = true) (w : Nat) :
    ¬ (w &&& d.fmt.mask = d.fmt.mtch ∧ w &&& e.fmt.mask = e.fmt.mtch) := by
  rintro ⟨h1, h2⟩
  have : d.fmt.mtch &&& (d.fmt.mask &&& e.fmt.mask) = e.fmt.mtch &&& (d.fmt.mask &&& e.fmt.mask) := by
    rw [← h1, ← h2]
    apply Nat.eq_of_testBit_eq
    intro k
    simp only [Nat.testBit_and]
    cases w.testBit k <;> cases d.fmt.mask.testBit k <;> cases e.fmt.mask.testBit k <;> rfl
  simp [clash, this] at h

/-- The two encodings of ADD (SP plus register) and the word both match. -/
def isSpPair (d e : Dec) : Bool := (d.handler == .addSpPlusRegT1 && e.handler == .addSpPlusRegT2) ||
  (d.handler == .addSpPlusRegT2 && e.handler == .addSpPlusRegT1)

set_option maxRecDepth 20000 in
theorem decs_apart : decs.Pairwise (fun d e => d.is32 = e.is32 →
    C34.ones d.fmt.mask = C34.ones e.fmt.mask → clash d e = true ∨ isSpPair d e = true) := by
  decide +kernel

set_option maxRecDepth 20000 in
theorem spT1 : ∀ d ∈ decs, d.handler = .addSpPlusRegT1 → d.fmt.mask = 0xff78 ∧ d.fmt.mtch = 0x4468 := by decide +kernel

set_option maxRecDepth 20000 in
theorem spT2 : ∀ d ∈ decs, d.handler = .addSpPlusRegT2 → d.fmt.fields = [⟨c! "Rm", 3, 4⟩] := by decide +kernel

theorem spT2_decode (d : Dec) (h : d.handler = .addSpPlusRegT2) (hf : d.fmt.fields = [⟨c! "Rm", 3, 4⟩]) (w : Nat) (a : Int)
    (hw : w &&& 0xff78 = 0x4468) : d.decode w a = .error .decodeError := by
  have hb : w / 2 ^ 3 % 2 ^ 4 = 13 := by
    have h1 : (w &&& 0xff78) / 2 ^ 3 % 2 ^ 4 = 13 := by rw [hw]
    have h2 : (w &&& 0xff78) / 2 ^ 3 % 2 ^ 4 = w / 2 ^ 3 % 2 ^ 4 := by
      apply Nat.eq_of_testBit_eq
      intro k
      rw [Nat.testBit_mod_two_pow, Nat.testBit_mod_two_pow, Nat.testBit_div_two_pow, Nat.testBit_div_two_pow, Nat.testBit_and]
      by_cases hk : k < 4
      · have : ∀ k < 4, Nat.testBit 0xff78 (k + 3) = true := by decide
        rw [this k hk]; simp
      · simp [hk]
    rw [← h2, h1]
  have hr : (⟨c! "Rm", 3, 4⟩ : FieldPos).read w = .ok (bv 4 13) := by
    rw [C33.read_eq]
    exact congrArg _ (bv_congr hb)
  unfold Dec.decode Dec.readAll
  rw [h, hf]
  simp only [hr, Dec.readAll]
  rfl

theorem decs_Apart (w : Nat) (a : Int) (b : Bool) : (decs.filter fun d => d.is32 == b).Pairwise (Apart w a) := by
  have h1 := decs_apart.filter fun d => d.is32 == b
  refine h1.imp_of_mem ?_
  intro d e hd he h ho hwd hwe
  have hd := List.mem_filter.mp hd
  have he := List.mem_filter.mp he
  have hb : d.is32 = e.is32 := by
    have h1 : d.is32 = b := by simpa using hd.2
    have h2 : e.is32 = b := by simpa using he.2
    rw [h1, h2]
  rcases h hb ho with hc | hp
  · exact absurd ⟨hwd, hwe⟩ (clash_apart hc w)
  · unfold isSpPair at hp
    simp only [Bool.or_eq_true, Bool.and_eq_true, beq_iff_eq] at hp
    rcases hp with ⟨hd1, he2⟩ | ⟨hd2, he1⟩
    · right
      obtain ⟨hm, ht⟩ := spT1 d hd.1 hd1
      exact spT2_decode e he2 (spT2 e he.1 he2) w a (by rw [← hm, hwd, ht])
    · left
      obtain ⟨hm, ht⟩ := spT1 e he.1 he1
      exact spT2_decode d hd2 (spT2 d hd.1 hd2) w a (by rw [← hm, hwe, ht])

/-- Trees that walk the same decode the same. -/
theorem same_decode (us ts : Trees) (h16 : ∀ w b, (us.t16.walk w b).1 = (ts.t16.walk w b).1)
    (h32 : ∀ w b, (us.t32.walk w b).1 = (ts.t32.walk w b).1) (y : List Nat) (b : Int) :
    (us.decode y b).1 = (ts.decode y b).1 := by
  unfold Trees.decode
  split
  · rfl
  · split
    · rfl
    · split
      · split
        · rfl
        · split
          · rfl
          · exact h32 _ _
      · exact h16 _ _

/-- **C35.** In the program's table: in whatever order the encodings are registered, every
input decodes to the same instruction or the same error. -/
theorem table_order_irrelevant (es : List Dec) (h : decoders.Perm es) (data : List Nat) (a : Int) :
    ((buildTrees es).decode data a).1 = (trees.decode data a).1 := by
  have w32 : ∀ w a, ((build (es.filter fun d => d.is32)).walk w a).1 = ((build (decoders.filter fun d => d.is32)).walk w a).1 := by
    intro w a
    have hA := decs_Apart w a true
    rw [← decoders_eq] at hA
    have : (fun d : Dec => d.is32 == true) = fun d => d.is32 := by funext d; cases d.is32 <;> rfl
    rw [this] at hA
    exact (order_irrelevant _ _ (h.filter _) w a hA).symm
  have w16 : ∀ w a, ((build (es.filter fun d => !d.is32)).walk w a).1 = ((build (decoders.filter fun d => !d.is32)).walk w a).1 := by
    intro w a
    have hA := decs_Apart w a false
    rw [← decoders_eq] at hA
    have : (fun d : Dec => d.is32 == false) = fun d => !d.is32 := by funext d; cases d.is32 <;> rfl
    rw [this] at hA
    exact (order_irrelevant _ _ (h.filter _) w a hA).symm
  rw [trees]
  generalize decoders = ds at w16 w32
  exact same_decode _ _ w16 w32 data a

/-- A permutation of the rows is a permutation of the decoders, so the claim covers every
order of the `@instr` lines. -/
theorem compileAll_perm {r s : List Row} (h : r.Perm s) : ∀ {ds}, compileAll r = .ok ds →
    ∃ es, compileAll s = .ok es ∧ ds.Perm es := by
  have step : ∀ {x : Row} {l : List Row} {d ds}, x.compile = .ok d → compileAll l = .ok ds → compileAll (x :: l) = .ok (d :: ds) := by
    intro x l d ds h1 h2; simp only [compileAll, h1, h2]; rfl
  have inv : ∀ {x : Row} {l : List Row} {ds}, compileAll (x :: l) = .ok ds →
      ∃ d es, x.compile = .ok d ∧ compileAll l = .ok es ∧ ds = d :: es := by
    intro x l ds h
    rw [compileAll] at h
    cases h1 : x.compile with
    | error e => rw [h1] at h; cases h
    | ok d =>
      rw [h1] at h
      cases h2 : compileAll l with
      | error e => rw [h2] at h; cases h
      | ok es => rw [h2] at h; cases h; exact ⟨d, es, rfl, rfl, rfl⟩
  induction h with
  | nil => intro ds h; exact ⟨ds, h, .refl _⟩
  | cons x _ ih =>
    intro ds h
    obtain ⟨d, es, h1, h2, rfl⟩ := inv h
    obtain ⟨fs, h3, h4⟩ := ih h2
    exact ⟨_, step h1 h3, h4.cons d⟩
  | swap x y l =>
    intro ds h
    obtain ⟨d, es, h1, h2, rfl⟩ := inv h
    obtain ⟨d', es', h3, h4, rfl⟩ := inv h2
    exact ⟨_, step h3 (step h1 h4), .swap _ _ _⟩
  | trans _ _ ih1 ih2 =>
    intro ds h
    obtain ⟨es, h1, h2⟩ := ih1 h
    obtain ⟨fs, h3, h4⟩ := ih2 h1
    exact ⟨fs, h3, h2.trans h4⟩

/-- **C35.** The same for the rows of the source: any order of the decorators gives
decoders, and they decode every input as those of the file. -/
theorem rows_order_irrelevant (rs : List Row) (h : rows.Perm rs) :
    ∃ es, compileAll rs = .ok es ∧ ∀ data a, ((buildTrees es).decode data a).1 = (trees.decode data a).1 := by
  obtain ⟨es, h1, h2⟩ := compileAll_perm h compileAll_rows
  refine ⟨es, h1, fun data a => table_order_irrelevant es ?_ data a⟩
  rw [decoders_eq]; exact h2

/-- The condition is needed: two decoders with the same mask and match, registered in
the two orders, decode differently. -/
theorem order_matters : ∃ (d e : Dec) (w : Nat), ((build [d, e]).walk w 0).1 ≠ ((build [e, d]).walk w 0).1 :=
  ⟨⟨c! "nop", .instruction, .nop, [], false, ⟨0xff00, 0x1200, []⟩⟩,
   ⟨c! "sev", .instruction, .nop, [], false, ⟨0xff00, 0x1200, []⟩⟩, 0x1234, by decide +kernel⟩

/-- The overlap that the handlers resolve: `0x44ed` matches both encodings. -/
example : (trees.t16.walk 0x44ed 0).1.toOption.map (·.operands) =
    some [.one (.reg 13 false), .one (.reg 13 false), .one (.reg 13 false)] := by
  rw [trees, decoders_eq]; decide +kernel

end C35

namespace C37

/-- The trees after a history of calls. -/
def after (ts : Trees) : List (List Nat × Int) → Trees
  | [] => ts
  | (data, a) :: t => after (ts.decode data a).2 t

theorem decode_decode (ts : Trees) (x : List Nat) (a : Int) (y : List Nat) (b : Int) :
    ((ts.decode x a).2.decode y b).1 = (ts.decode y b).1 := by
  apply C35.same_decode
  · intro w b
    unfold Trees.decode
    split
    · rfl
    · split
      · rfl
      · split
        · split
          · rfl
          · split <;> rfl
        · exact walk_walk ..
  · intro w b
    unfold Trees.decode
    split
    · rfl
    · split
      · rfl
      · split
        · split
          · rfl
          · split
            · rfl
            · exact walk_walk ..
        · rfl

/-- **C37.** The result of decoding does not depend on what was decoded before, for every
pair of trees and every history, although failed lookups add entries to the trees. -/
theorem no_memory (h : List (List Nat × Int)) : ∀ (ts : Trees) (data : List Nat) (a : Int),
    ((after ts h).decode data a).1 = (ts.decode data a).1 := by
  induction h with
  | nil => intro ts data a; rfl
  | cons x t ih =>
    obtain ⟨d, b⟩ := x
    intro ts data a
    rw [after, ih, decode_decode]

/-- Whether the walk of a word ends at the empty list a lookup has left. -/
def atHole (w : Nat) : Tree → Bool
  | .leaf _ => false
  | .hole => true
  | .node mask keys child => if w &&& mask ∈ keys then atHole w (child (w &&& mask)) else false

/-- Lookups really change the tree: here a missing child is added. -/
theorem tree_changes : ∃ w a, (trees.t16.walk w a).2 ≠ trees.t16 := by
  refine ⟨0xb100, 0, fun h => ?_⟩
  have h2 := congrArg (atHole 0xb100) h
  revert h2
  rw [trees, decoders_eq]; decide +kernel

example : ((after trees [([0x00, 0xb1], 0), ([0x00, 0xb1], 2)]).decode [0x4b, 0x1c] 8).1 = (trees.decode [0x4b, 0x1c] 8).1 :=
  no_memory ..

end C37
end Verif
