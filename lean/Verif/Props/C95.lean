import Verif.TreeDump
import Verif.Props.C82Attr

/-!
# C95: the dump of the decoder tree
-/

namespace Verif
namespace C95

/-! ### Reading a dump -/

/-- What has been read: the masks and the keys above the next line. -/
structure Place where
  masks : List Nat
  keys : List Nat

/-- Reading one line. The mask of a node stands at twice its level, its keys one deeper. -/
def Place.step (p : Place) : DumpLine → Place
  | .title _ => ⟨[], []⟩
  | .mask depth m => ⟨p.masks.take (depth / 2) ++ [m], p.keys.take (depth / 2)⟩
  | .key depth _ k => ⟨p.masks.take (depth / 2 + 1), p.keys.take (depth / 2) ++ [k]⟩
  | .entry _ _ _ => p

def Place.after (p : Place) : List DumpLine → Place
  | [] => p
  | l :: t => (p.step l).after t

/-- The decoders that a dump lists, each with the masks and keys above it. -/
def listed (p : Place) : List DumpLine → List (List (Nat × Nat) × Dec)
  | [] => []
  | .entry _ _ d :: t => (p.masks.zip p.keys, d) :: listed p t
  | l :: t => listed (p.step l) t

theorem after_append (l r : List DumpLine) : ∀ p : Place, p.after (l ++ r) = (p.after l).after r := by
  induction l with
  | nil => exact fun _ => rfl
  | cons a t ih => exact fun p => ih (p.step a)

theorem listed_append (l r : List DumpLine) : ∀ p : Place, listed p (l ++ r) = listed p l ++ listed (p.after l) r := by
  induction l with
  | nil => exact fun _ => rfl
  | cons a t ih =>
    intro p
    cases a with
    | entry i j d => exact congrArg (_ :: ·) (ih p)
    | title b => exact ih _
    | mask d m => exact ih _
    | key d i k => exact ih _

/-- The decoders of a tree with the masks and keys on the way to them. -/
def paths (order : List Nat → List Nat) (pre : List (Nat × Nat)) : Tree → List (List (Nat × Nat) × Dec)
  | .hole => []
  | .leaf ds => ds.map fun d => (pre, d)
  | .node m keys child => (order keys).flatMap fun k => paths order (pre ++ [(m, k)]) (child k)

/-- The place agrees with these masks and keys up to a level. -/
def At (pm pk : List Nat) (p : Place) : Prop := p.masks.take pm.length = pm ∧ p.keys.take pm.length = pk

theorem entries_listed (p : Place) (depth : Nat) : ∀ (ds : List Dec) (n : Nat),
    listed p ((ds.zipIdx n).map fun q => .entry depth q.2 q.1) = ds.map fun d => (p.masks.zip p.keys, d)
  | [], _ => rfl
  | _ :: t, n => congrArg (_ :: ·) (entries_listed p depth t (n + 1))

theorem entries_after (p : Place) (depth : Nat) : ∀ (ds : List Dec) (n : Nat),
    p.after ((ds.zipIdx n).map fun q => .entry depth q.2 q.1) = p
  | [], _ => rfl
  | _ :: t, n => entries_after p depth t (n + 1)

theorem keys_listed (order : List Nat → List Nat) {pm pk : List Nat} (m : Nat) (hk : pk.length = pm.length) (child : Nat → Tree)
    (ih : ∀ (k : Nat) (p : Place) (l : List DumpLine), At (pm ++ [m]) (pk ++ [k]) p → (child k).dump order (2 * pm.length + 2) = (l, .ok ()) →
      listed p l = paths order (pm.zip pk ++ [(m, k)]) (child k) ∧ At (pm ++ [m]) (pk ++ [k]) (p.after l)) :
    ∀ (ks : List Nat) (i : Nat) (p : Place) (l : List DumpLine), p.masks.take (pm.length + 1) = pm ++ [m] → p.keys.take pm.length = pk →
      dumpKeys (fun k => (child k).dump order (2 * pm.length + 2)) (2 * pm.length + 1) i ks = (l, .ok ()) →
      listed p l = ks.flatMap (fun k => paths order (pm.zip pk ++ [(m, k)]) (child k)) ∧
        (p.after l).masks.take (pm.length + 1) = pm ++ [m] ∧ (p.after l).keys.take pm.length = pk := by
  intro ks
  induction ks with
  | nil =>
    intro i p l h1 h2 h
    cases h
    exact ⟨rfl, h1, h2⟩
  | cons k t iht =>
    intro i p l h1 h2 h
    rw [dumpKeys] at h
    cases hc : (child k).dump order (2 * pm.length + 2) with
    | mk lc r =>
      rw [hc] at h
      cases r with
      | error e => cases h
      | ok u =>
        simp only at h
        cases hr : dumpKeys (fun k => (child k).dump order (2 * pm.length + 2)) (2 * pm.length + 1) (i + 1) t with
        | mk lr rr =>
          rw [hr] at h
          simp only [Prod.mk.injEq] at h
          obtain ⟨rfl, rfl⟩ := h
          have hd : (2 * pm.length + 1) / 2 = pm.length := by omega
          have hp : p.step (.key (2 * pm.length + 1) i k) = ⟨pm ++ [m], pk ++ [k]⟩ := by
            simp only [Place.step, hd, h1, h2]
          have hat : At (pm ++ [m]) (pk ++ [k]) ⟨pm ++ [m], pk ++ [k]⟩ := by
            unfold At
            refine ⟨List.take_length, ?_⟩
            exact List.take_of_length_le (by simp [hk])
          obtain ⟨a1, a2⟩ := ih k _ lc hat hc
          have b1 : ((Place.mk (pm ++ [m]) (pk ++ [k])).after lc).masks.take (pm.length + 1) = pm ++ [m] := by
            have := a2.1
            rwa [List.length_append] at this
          have b2 : ((Place.mk (pm ++ [m]) (pk ++ [k])).after lc).keys.take pm.length = pk := by
            have := congrArg (List.take pm.length) a2.2
            rw [List.take_take, List.length_append, Nat.min_eq_left (by simp), List.take_left' hk] at this
            exact this
          obtain ⟨c1, c2⟩ := iht (i + 1) _ lr b1 b2 hr
          show listed (p.step (.key (2 * pm.length + 1) i k)) (lc ++ lr) = _ ∧ ((p.step (.key (2 * pm.length + 1) i k)).after (lc ++ lr)).masks.take _ = _ ∧
            ((p.step (.key (2 * pm.length + 1) i k)).after (lc ++ lr)).keys.take _ = _
          rw [hp, listed_append, after_append, a1, c1]
          exact ⟨rfl, c2⟩

theorem dump_listed (order : List Nat → List Nat) : ∀ (t : Tree) (pm pk : List Nat) (p : Place) (l : List DumpLine), pk.length = pm.length →
    At pm pk p → t.dump order (2 * pm.length) = (l, .ok ()) → listed p l = paths order (pm.zip pk) t ∧ At pm pk (p.after l)
  | .hole, _, _, _, _, _, _, h => by cases h
  | .leaf ds, pm, pk, p, l, hk, hp, h => by
    cases h
    have hd : 2 * pm.length / 2 = pm.length := by omega
    have hs : p.step (.mask (2 * pm.length) 0) = ⟨pm ++ [0], pk⟩ := by simp only [Place.step, hd, hp.1, hp.2]
    show listed (p.step (.mask (2 * pm.length) 0)) _ = _ ∧ At pm pk ((p.step (.mask (2 * pm.length) 0)).after _)
    rw [hs, entries_listed, entries_after]
    refine ⟨?_, List.take_left' rfl, ?_⟩
    · have : (pm ++ [0]).zip pk = pm.zip pk := by
        have := List.zip_append (l₁ := pm) (r₁ := [0]) (l₂ := pk) (r₂ := []) hk.symm
        rwa [List.append_nil, List.zip_nil_right, List.append_nil] at this
      rw [this]
      rfl
    · rw [← hk]
      exact List.take_length
  | .node m keys child, pm, pk, p, l, hk, hp, h => by
    rw [Tree.dump] at h
    cases hr : dumpKeys (fun k => (child k).dump order (2 * pm.length + 2)) (2 * pm.length + 1) 0 (order keys) with
    | mk lr rr =>
      rw [hr] at h
      simp only [Prod.mk.injEq] at h
      obtain ⟨rfl, rfl⟩ := h
      have hd : 2 * pm.length / 2 = pm.length := by omega
      have hs : p.step (.mask (2 * pm.length) m) = ⟨pm ++ [m], pk⟩ := by simp only [Place.step, hd, hp.1, hp.2]
      obtain ⟨c1, c2, c3⟩ := keys_listed order m hk child (fun k p l hat hdump => by
        have := dump_listed order (child k) (pm ++ [m]) (pk ++ [k]) p l (by simp [hk]) hat (by
          rw [List.length_append]; exact hdump)
        rwa [List.zip_append hk.symm] at this) (order keys) 0 ⟨pm ++ [m], pk⟩ lr
        (List.take_of_length_le (by simp)) (by rw [← hk]; exact List.take_length) hr
      show listed (p.step (.mask (2 * pm.length) m)) lr = _ ∧ At pm pk ((p.step (.mask (2 * pm.length) m)).after lr)
      rw [hs]
      refine ⟨c1, ?_, c3⟩
      have := congrArg (List.take pm.length) c2
      rwa [List.take_take, Nat.min_eq_left (by omega), List.take_left' rfl] at this

/-! ### When it ends -/

/-- No lookup has left an empty list. -/
def Whole : Tree → Prop
  | .hole => False
  | .leaf _ => True
  | .node _ keys child => ∀ k ∈ keys, Whole (child k)

theorem keys_end (child : Nat → List DumpLine × PyRes Unit) (depth : Nat) : ∀ (ks : List Nat) (i : Nat),
    (∀ k ∈ ks, (child k).2 = .ok () ∨ (child k).2 = .error .attributeError) →
    ((dumpKeys child depth i ks).2 = .ok () ∧ ∀ k ∈ ks, (child k).2 = .ok ()) ∨
      ((dumpKeys child depth i ks).2 = .error .attributeError ∧ ∃ k ∈ ks, (child k).2 ≠ .ok ())
  | [], _, _ => .inl ⟨rfl, nofun⟩
  | k :: t, i, h => by
    rw [dumpKeys]
    rcases h k (by simp) with hk | hk
    · cases hc : child k with
      | mk l r =>
        rw [hc] at hk
        cases hk
        simp only
        rcases keys_end child depth t (i + 1) fun j hj => h j (List.mem_cons_of_mem _ hj) with ⟨h1, h2⟩ | ⟨h1, j, h2, h3⟩
        · refine .inl ⟨h1, fun j hj => ?_⟩
          rcases List.mem_cons.1 hj with rfl | hj
          · rw [hc]
          · exact h2 j hj
        · exact .inr ⟨h1, j, List.mem_cons_of_mem _ h2, h3⟩
    · cases hc : child k with
      | mk l r =>
        rw [hc] at hk
        cases hk
        exact .inr ⟨rfl, k, by simp, by rw [hc]; nofun⟩

/-- The dump of a tree is complete exactly if the tree has no empty list, and fails with `AttributeError` otherwise. -/
theorem dump_end {order : List Nat → List Nat} (ho : ∀ l, (order l).Perm l) : ∀ (t : Tree) (depth : Nat),
    ((t.dump order depth).2 = .ok () ∧ Whole t) ∨ ((t.dump order depth).2 = .error .attributeError ∧ ¬ Whole t)
  | .hole, _ => .inr ⟨rfl, id⟩
  | .leaf _, _ => .inl ⟨rfl, trivial⟩
  | .node m keys child, depth => by
    have ih : ∀ k, _ := fun k => dump_end ho (child k) (depth + 2)
    rcases keys_end (fun k => (child k).dump order (depth + 2)) (depth + 1) (order keys) 0 (fun k _ => (ih k).imp And.left And.left) with
      ⟨h1, h2⟩ | ⟨h1, k, h2, h3⟩
    · refine .inl ⟨h1, fun k hk => ?_⟩
      have h := h2 k ((ho keys).mem_iff.2 hk)
      rcases ih k with ⟨-, h'⟩ | ⟨h', -⟩
      · exact h'
      · rw [h] at h'
        cases h'
    · refine .inr ⟨h1, fun hw => ?_⟩
      have hk := hw k ((ho keys).mem_iff.1 h2)
      rcases ih k with ⟨h', -⟩ | ⟨-, h'⟩
      · exact h3 h'
      · exact h' hk

/-! ### Trees that are built -/

theorem build_whole : ∀ (n : Nat) (ds : List Dec), Whole (buildTree n ds)
  | 0, _ => trivial
  | n + 1, ds => by
    rw [buildTree]
    simp only
    split
    · trivial
    · split
      · trivial
      · split
        · trivial
        · exact fun k _ => build_whole n _

theorem flatMap_perm {α β : Type} {f g : α → List β} : ∀ {l : List α}, (∀ x ∈ l, (f x).Perm (g x)) → (l.flatMap f).Perm (l.flatMap g)
  | [], _ => .refl _
  | x :: t, h => by
    rw [List.flatMap_cons, List.flatMap_cons]
    exact (h x (by simp)).append (flatMap_perm fun y hy => h y (List.mem_cons_of_mem _ hy))

theorem groups_perm (cm : Nat) : ∀ (ks : List Nat) (s : List Dec), ks.Nodup → (∀ d ∈ s, d.fmt.mtch &&& cm ∈ ks) →
    (ks.flatMap fun k => group cm k s).Perm s
  | [], s, _, h => by
    cases s with
    | nil => exact .refl _
    | cons d t => exact absurd (h d (by simp)) List.not_mem_nil
  | k :: t, s, hn, h => by
    rw [List.nodup_cons] at hn
    rw [List.flatMap_cons]
    have ih := groups_perm cm t (s.filter fun d => !decide (d.fmt.mtch &&& cm = k)) hn.2 fun d hd => by
      rw [List.mem_filter] at hd
      rcases List.mem_cons.1 (h d hd.1) with h1 | h1
      · simp [h1] at hd
      · exact h1
    have e : (t.flatMap fun j => group cm j s) = t.flatMap fun j => group cm j (s.filter fun d => !decide (d.fmt.mtch &&& cm = k)) := by
      rw [List.flatMap_def, List.flatMap_def]
      congr 1
      apply List.map_congr_left
      intro j hj
      unfold group
      rw [List.filter_filter]
      apply List.filter_congr
      intro d _
      by_cases hd : d.fmt.mtch &&& cm = j
      · have : j ≠ k := fun q => hn.1 (q ▸ hj)
        simp [hd, this]
      · simp [hd]
    rw [e]
    exact ((List.Perm.refl _).append ih).trans (List.filter_append_perm _ s)

theorem paths_perm {order : List Nat → List Nat} (ho : ∀ l, (order l).Perm l) : ∀ (n : Nat) (ds : List Dec) (pre : List (Nat × Nat)),
    ((paths order pre (buildTree n ds)).map Prod.snd).Perm ds
  | 0, ds, pre => by
    simp [buildTree, paths, List.map_map, Function.comp_def]
  | n + 1, ds, pre => by
    have leaf : ((paths order pre (.leaf (sortDecs ds))).map Prod.snd).Perm ds := by
      simp only [paths, List.map_map, Function.comp_def, List.map_id']
      exact sortDecs_perm ds
    rw [buildTree]
    simp only
    split
    · exact leaf
    · split
      · exact leaf
      · split
        · exact leaf
        · rw [paths, List.map_flatMap]
          refine .trans ?_ (sortDecs_perm ds)
          refine .trans (flatMap_perm (g := fun k => group (commonMask (sortDecs ds)) k (sortDecs ds)) fun k _ => paths_perm ho n _ _) ?_
          refine .trans ((ho _).flatMap_right _) ?_
          exact groups_perm _ _ _ groupKeys_nodup fun d hd => mem_groupKeys.2 ⟨d, hd, rfl⟩

theorem paths_keys {order : List Nat → List Nat} (ho : ∀ l, (order l).Perm l) : ∀ (n : Nat) (ds : List Dec) (pre : List (Nat × Nat)),
    ∀ x ∈ paths order pre (buildTree n ds), ∃ q, x.1 = pre ++ q ∧
      ∀ y ∈ q, y.1 ≠ 0 ∧ y.1 &&& x.2.fmt.mask = y.1 ∧ x.2.fmt.mtch &&& y.1 = y.2
  | 0, ds, pre, x, hx => by
    rw [buildTree, paths, List.mem_map] at hx
    obtain ⟨d, -, rfl⟩ := hx
    exact ⟨[], (List.append_nil _).symm, nofun⟩
  | n + 1, ds, pre, x, hx => by
    have leaf : x ∈ paths order pre (.leaf (sortDecs ds)) → ∃ q, x.1 = pre ++ q ∧
        ∀ y ∈ q, y.1 ≠ 0 ∧ y.1 &&& x.2.fmt.mask = y.1 ∧ x.2.fmt.mtch &&& y.1 = y.2 := by
      intro hx
      rw [paths, List.mem_map] at hx
      obtain ⟨d, -, rfl⟩ := hx
      exact ⟨[], (List.append_nil _).symm, nofun⟩
    rw [buildTree] at hx
    simp only at hx
    split at hx
    · exact leaf hx
    · split at hx
      · exact leaf hx
      · next h0 =>
        split at hx
        · exact leaf hx
        · rw [paths, List.mem_flatMap] at hx
          obtain ⟨k, -, hx⟩ := hx
          obtain ⟨q, h1, h2⟩ := paths_keys ho n _ _ x hx
          have hm : x.2 ∈ group (commonMask (sortDecs ds)) k (sortDecs ds) :=
            (paths_perm ho n _ _).mem_iff.1 (List.mem_map_of_mem hx)
          obtain ⟨g1, g2⟩ := List.mem_filter.1 hm
          refine ⟨(commonMask (sortDecs ds), k) :: q, by rw [h1, List.append_assoc]; rfl, fun y hy => ?_⟩
          rcases List.mem_cons.1 hy with rfl | hy
          · exact ⟨h0, commonMask_sub g1, of_decide_eq_true g2⟩
          · exact h2 y hy

/-- The word has these bits under these masks. -/
def fits (w : Nat) (path : List (Nat × Nat)) : Bool := path.all fun y => w &&& y.1 = y.2

/-- The decoders listed under masks and keys that fit the word, in the order of the dump. -/
def candidates (w : Nat) (l : List (List (Nat × Nat) × Dec)) : List Dec := (l.filter fun x => fits w x.1).map Prod.snd

theorem flatMap_none {α β : Type} {f : α → List β} : ∀ {l : List α}, (∀ y ∈ l, f y = []) → l.flatMap f = []
  | [], _ => rfl
  | y :: t, h => by
    rw [List.flatMap_cons, h y (by simp), flatMap_none fun z hz => h z (List.mem_cons_of_mem _ hz)]
    rfl

theorem flatMap_single {α β : Type} {f : α → List β} {x : α} : ∀ {l : List α}, l.Nodup → x ∈ l → (∀ y ∈ l, y ≠ x → f y = []) → l.flatMap f = f x
  | y :: t, hn, hx, h => by
    rw [List.nodup_cons] at hn
    rw [List.flatMap_cons]
    rcases List.mem_cons.1 hx with rfl | hx
    · rw [flatMap_none fun z hz => h z (List.mem_cons_of_mem _ hz) fun e => hn.1 (e ▸ hz), List.append_nil]
    · rw [h y (by simp) fun e => hn.1 (e ▸ hx), flatMap_single hn.2 hx fun z hz => h z (List.mem_cons_of_mem _ hz)]
      rfl

theorem walk_candidates {order : List Nat → List Nat} (ho : ∀ l, (order l).Perm l) (w : Nat) (a : Int) :
    ∀ (n : Nat) (ds : List Dec) (pre : List (Nat × Nat)), fits w pre = true →
      (((buildTree n ds).walk w a).1 = tryAll w a (candidates w (paths order pre (buildTree n ds))) ∧
        (candidates w (paths order pre (buildTree n ds)) ≠ [] ∨ ds = [])) ∨
      (((buildTree n ds).walk w a).1 = .error .attributeError ∧ candidates w (paths order pre (buildTree n ds)) = [])
  | n, ds, pre, hpre => by
    have leaf : ∀ s : List Dec, s.length = ds.length → ((Tree.walk w a (.leaf s)).1 = tryAll w a (candidates w (paths order pre (.leaf s))) ∧
        (candidates w (paths order pre (.leaf s)) ≠ [] ∨ ds = [])) := by
      intro s hs
      have e : candidates w (paths order pre (.leaf s)) = s := by
        unfold candidates
        rw [paths, List.filter_map]
        simp [Function.comp_def, hpre]
      rw [e]
      refine ⟨rfl, ?_⟩
      cases ds with
      | nil => exact .inr rfl
      | cons d t =>
        refine .inl ?_
        rintro rfl
        cases hs
    cases n with
    | zero => exact .inl (leaf ds rfl)
    | succ n =>
      rw [buildTree]
      simp only
      split
      · exact .inl (leaf _ (length_sortDecs ds))
      · split
        · exact .inl (leaf _ (length_sortDecs ds))
        · split
          · exact .inl (leaf _ (length_sortDecs ds))
          · generalize hs : sortDecs ds = s
            generalize hcm : commonMask s = cm
            have no : ∀ k, k ≠ w &&& cm → candidates w (paths order (pre ++ [(cm, k)]) (buildTree n (group cm k s))) = [] := by
              intro k hk
              unfold candidates
              rw [List.map_eq_nil_iff, List.filter_eq_nil_iff]
              intro x hx
              obtain ⟨q, h1, -⟩ := paths_keys ho n _ _ x hx
              rw [h1]
              unfold fits
              simp [List.all_append, Ne.symm hk]
            have split : candidates w (paths order pre (.node cm (groupKeys cm s) fun k => buildTree n (group cm k s))) =
                (order (groupKeys cm s)).flatMap fun k => candidates w (paths order (pre ++ [(cm, k)]) (buildTree n (group cm k s))) := by
              unfold candidates
              rw [paths, List.filter_flatMap, List.map_flatMap]
            rw [split]
            by_cases hk : w &&& cm ∈ groupKeys cm s
            · rw [flatMap_single ((ho _).nodup_iff.2 groupKeys_nodup) ((ho _).mem_iff.2 hk) fun k _ => no k]
              have hw : (Tree.walk w a (.node cm (groupKeys cm s) fun k => buildTree n (group cm k s))).1 =
                  ((buildTree n (group cm (w &&& cm) s)).walk w a).1 := by
                simp only [Tree.walk, hk, if_true]
              rw [hw]
              rcases walk_candidates ho w a n (group cm (w &&& cm) s) (pre ++ [(cm, w &&& cm)]) (by
                unfold fits at hpre ⊢
                rw [List.all_append, hpre]
                simp) with ⟨h1, h2⟩ | h
              · refine .inl ⟨h1, .inl ?_⟩
                rcases h2 with h2 | h2
                · exact h2
                · obtain ⟨d, hd, he⟩ := mem_groupKeys.1 hk
                  have : d ∈ group cm (w &&& cm) s := List.mem_filter.2 ⟨hd, by simpa using he⟩
                  rw [h2] at this
                  cases this
              · exact .inr h
            · refine .inr ⟨by simp only [Tree.walk, hk, if_false], ?_⟩
              exact flatMap_none fun k hk' => no k fun e => hk (e ▸ (ho _).mem_iff.1 hk')

/-! ### The theorems -/

/-- What the dump of a tree lists, read from its first line. -/
def lists (t : Tree) (order : List Nat → List Nat) : List (List (Nat × Nat) × Dec) := listed ⟨[], []⟩ (t.dump order 0).1

theorem lists_paths {order : List Nat → List Nat} {t : Tree} (h : (t.dump order 0).2 = .ok ()) : lists t order = paths order [] t := by
  have : t.dump order 0 = ((t.dump order 0).1, .ok ()) := by rw [← h]
  exact (dump_listed order t [] [] ⟨[], []⟩ _ rfl ⟨rfl, rfl⟩ this).1

theorem build_ends {order : List Nat → List Nat} (ho : ∀ l, (order l).Perm l) (ds : List Dec) (depth : Nat) :
    ((build ds).dump order depth).2 = .ok () := by
  rcases dump_end ho (build ds) depth with ⟨h, -⟩ | ⟨-, h⟩
  · exact h
  · exact absurd (build_whole _ ds) h

/-- **C95.** For any decoders and any order of dictionary keys: the dump of a tree just built is complete. It lists every
decoder as often as it was registered, and the keys above a decoder are its fixed bits under the masks above it, all of
which are fixed bits of the decoder. -/
theorem every_decoder_partial {order : List Nat → List Nat} (ho : ∀ l, (order l).Perm l) (ds : List Dec) :
    ((build ds).dump order 0).2 = .ok () ∧ ((lists (build ds) order).map Prod.snd).Perm ds ∧
      ∀ x ∈ lists (build ds) order, ∀ y ∈ x.1, y.1 ≠ 0 ∧ y.1 &&& x.2.fmt.mask = y.1 ∧ x.2.fmt.mtch &&& y.1 = y.2 := by
  have h := build_ends ho ds 0
  rw [lists_paths h]
  refine ⟨h, paths_perm ho _ ds [], fun x hx => ?_⟩
  obtain ⟨q, h1, h2⟩ := paths_keys ho _ ds [] x hx
  rw [h1]
  exact h2

/-- **C95.** The dump can be used to decode: of the decoders under masks and keys that fit a word, the first one that accepts
it is the one the program takes; if there are none, decoding fails with `AttributeError`. -/
theorem decode_by_dump {order : List Nat → List Nat} (ho : ∀ l, (order l).Perm l) {ds : List Dec} (hds : ds ≠ []) (w : Nat) (a : Int) :
    ((build ds).walk w a).1 = if candidates w (lists (build ds) order) = [] then .error .attributeError
      else C34.search w a (candidates w (lists (build ds) order)) := by
  rw [lists_paths (build_ends ho ds 0), build]
  rcases walk_candidates ho w a ds.length ds [] rfl with ⟨h1, h2⟩ | ⟨h1, h2⟩
  · rw [if_neg (h2.resolve_right hds), ← C34.tryAll_eq]
    exact h1
  · rw [if_pos h2]
    exact h1

/-! ### After decoding -/

/-- The walk for the word ends in a leaf. -/
def Reaches (w : Nat) : Tree → Prop
  | .hole => False
  | .leaf _ => True
  | .node m keys child => w &&& m ∈ keys ∧ Reaches w (child (w &&& m))

theorem walk_whole (w : Nat) (a : Int) : ∀ t : Tree, Whole (t.walk w a).2 ↔ Whole t ∧ Reaches w t
  | .hole => ⟨False.elim, fun h => h.1⟩
  | .leaf _ => ⟨fun _ => ⟨trivial, trivial⟩, fun _ => trivial⟩
  | .node m keys child => by
    by_cases hk : w &&& m ∈ keys
    · have ih := walk_whole w a (child (w &&& m))
      have e : (Tree.walk w a (.node m keys child)).2 =
          .node m keys fun j => if j = w &&& m then ((child (w &&& m)).walk w a).2 else child j := by
        simp only [Tree.walk, hk, if_true]
      rw [e]
      constructor
      · intro h
        have h0 := h _ hk
        simp only [if_true] at h0
        obtain ⟨h1, h2⟩ := ih.1 h0
        refine ⟨fun j hj => ?_, hk, h2⟩
        by_cases hj' : j = w &&& m
        · rw [hj']; exact h1
        · have := h j hj
          simpa only [hj', if_false] using this
      · rintro ⟨h1, h2⟩ j hj
        by_cases hj' : j = w &&& m
        · simp only [hj', if_true]
          exact ih.2 ⟨h1 _ hk, h2.2⟩
        · simp only [hj', if_false]
          exact h1 j hj
    · have e : (Tree.walk w a (.node m keys child)).2 = .node m (keys ++ [w &&& m]) fun j => if j = w &&& m then .hole else child j := by
        simp only [Tree.walk, hk, if_false]
      rw [e]
      constructor
      · intro h
        have := h (w &&& m) (by simp)
        simp only [if_true] at this
        exact this.elim
      · exact fun h => absurd h.2.1 hk

/-- No decoder of the tree raises `AttributeError`. -/
def Calm (t : Tree) : Prop := ∀ l ∈ C82.leaves t, ∀ w a, tryAll w a l ≠ .error .attributeError

theorem reaches_iff {w : Nat} (a : Int) : ∀ {t : Tree}, Calm t → (Reaches w t ↔ (t.walk w a).1 ≠ .error .attributeError)
  | .hole, _ => ⟨False.elim, fun h => h rfl⟩
  | .leaf ds, hc => ⟨fun _ => hc ds (by simp [C82.leaves]) w a, fun _ => trivial⟩
  | .node m keys child, hc => by
    by_cases hk : w &&& m ∈ keys
    · have e : (Tree.walk w a (.node m keys child)).1 = ((child (w &&& m)).walk w a).1 := by simp only [Tree.walk, hk, if_true]
      rw [e, ← reaches_iff a (t := child (w &&& m)) fun l hl => hc l (by rw [C82.leaves, List.mem_flatMap]; exact ⟨_, hk, hl⟩)]
      exact ⟨fun h => h.2, fun h => ⟨hk, h⟩⟩
    · have e : (Tree.walk w a (.node m keys child)).1 = .error .attributeError := by simp only [Tree.walk, hk, if_false]
      rw [e]
      exact ⟨fun h => absurd h.1 hk, fun h => absurd rfl h⟩

theorem walk_leaves (w : Nat) (a : Int) : ∀ (t : Tree), ∀ l ∈ C82.leaves (t.walk w a).2, l ∈ C82.leaves t
  | .hole, _, h => h
  | .leaf _, _, h => h
  | .node m keys child, l, h => by
    by_cases hk : w &&& m ∈ keys
    · have e : (Tree.walk w a (.node m keys child)).2 =
          .node m keys fun j => if j = w &&& m then ((child (w &&& m)).walk w a).2 else child j := by
        simp only [Tree.walk, hk, if_true]
      rw [e, C82.leaves, List.mem_flatMap] at h
      obtain ⟨j, h1, h2⟩ := h
      rw [C82.leaves, List.mem_flatMap]
      refine ⟨j, h1, ?_⟩
      by_cases hj : j = w &&& m
      · rw [if_pos hj] at h2
        rw [hj]
        exact walk_leaves w a _ l h2
      · rwa [if_neg hj] at h2
    · have e : (Tree.walk w a (.node m keys child)).2 = .node m (keys ++ [w &&& m]) fun j => if j = w &&& m then .hole else child j := by
        simp only [Tree.walk, hk, if_false]
      rw [e, C82.leaves, List.mem_flatMap] at h
      obtain ⟨j, h1, h2⟩ := h
      by_cases hj : j = w &&& m
      · rw [if_pos hj] at h2
        cases h2
      · rw [if_neg hj] at h2
        rw [C82.leaves, List.mem_flatMap]
        refine ⟨j, ?_, h2⟩
        rcases List.mem_append.1 h1 with h1 | h1
        · exact h1
        · exact absurd (List.mem_singleton.1 h1) hj

/-- Both trees. -/
def Both (P : Tree → Prop) (ts : Trees) : Prop := P ts.t16 ∧ P ts.t32

theorem bytes_error {data : List Nat} {n : Nat} {x : PyErr} (h : bytesToLe16 data n = .error x) : x ≠ .attributeError := by
  have hb : ∀ {k : Nat} {y : PyErr}, byteAt data k = .error y → y = .indexError := by
    intro k y hy
    unfold byteAt at hy
    split at hy
    · cases hy
    · cases hy; rfl
  unfold bytesToLe16 at h
  cases h0 : byteAt data n with
  | error y => rw [h0] at h; cases h; rw [hb h0]; nofun
  | ok b0 =>
    cases h1 : byteAt data (n + 1) with
    | error y => rw [h0, h1] at h; cases h; rw [hb h1]; nofun
    | ok b1 => rw [h0, h1] at h; cases h

theorem decode_whole {ts : Trees} (hc : Both Calm ts) (data : List Nat) (a : Int) :
    Both Whole (ts.decode data a).2 ↔ Both Whole ts ∧ (ts.decode data a).1 ≠ .error .attributeError := by
  have keep : ∀ {x : PyErr}, x ≠ .attributeError → (Both Whole ts ↔ Both Whole ts ∧ (Except.error x : PyRes Instr) ≠ .error .attributeError) :=
    fun hx => ⟨fun h => ⟨h, fun e => hx (Except.error.inj e)⟩, And.left⟩
  unfold Trees.decode
  split
  · exact keep nofun
  · split
    · next h => exact keep (bytes_error h)
    · split
      · split
        · exact keep nofun
        · split
          · next h => exact keep (bytes_error h)
          · simp only [Both, walk_whole]
            rw [reaches_iff a hc.2, and_assoc]
      · simp only [Both, walk_whole]
        rw [reaches_iff a hc.1]
        constructor
        · rintro ⟨⟨h1, h2⟩, h3⟩; exact ⟨⟨h1, h3⟩, h2⟩
        · rintro ⟨⟨h1, h3⟩, h2⟩; exact ⟨⟨h1, h2⟩, h3⟩

theorem decode_calm {ts : Trees} (hc : Both Calm ts) (data : List Nat) (a : Int) : Both Calm (ts.decode data a).2 := by
  unfold Trees.decode
  split
  · exact hc
  · split
    · exact hc
    · split
      · split
        · exact hc
        · split
          · exact hc
          · exact ⟨hc.1, fun l hl => hc.2 l (walk_leaves _ _ _ l hl)⟩
      · exact ⟨fun l hl => hc.1 l (walk_leaves _ _ _ l hl), hc.2⟩

theorem after_whole : ∀ (hist : List (List Nat × Int)) {ts : Trees}, Both Calm ts →
    (Both Whole (C37.after ts hist) ↔ Both Whole ts ∧ ∀ x ∈ hist, (ts.decode x.1 x.2).1 ≠ .error .attributeError)
  | [], ts, _ => ⟨fun h => ⟨h, nofun⟩, And.left⟩
  | (data, a) :: t, ts, hc => by
    rw [C37.after, after_whole t (decode_calm hc data a), decode_whole hc]
    constructor
    · rintro ⟨⟨h1, h2⟩, h3⟩
      refine ⟨h1, fun x hx => ?_⟩
      rcases List.mem_cons.1 hx with rfl | hx
      · exact h2
      · have := h3 x hx
        rwa [C37.decode_decode] at this
    · rintro ⟨h1, h2⟩
      refine ⟨⟨h1, h2 (data, a) (by simp)⟩, fun x hx => ?_⟩
      rw [C37.decode_decode]
      exact h2 x (List.mem_cons_of_mem _ hx)

theorem trees_whole : Both Whole trees := by
  rw [trees]
  generalize decoders = ds
  exact ⟨build_whole _ _, build_whole _ _⟩

theorem trees_calm : Both Calm trees := by
  have : ∀ (b : Bool), ∀ l ∈ C82.leaves (build (decs.filter fun d => d.is32 == b)), ∀ w a, tryAll w a l ≠ .error .attributeError :=
    fun b l hl w a => C82.tryAll_not_attribute fun d hd => (List.mem_filter.1 (C82.leaves_build _ _ l hl d hd)).1
  rw [trees, buildTrees, decoders_eq]
  have e1 : (decs.filter fun d => !d.is32) = decs.filter fun d => d.is32 == false := by
    congr 1; funext d; cases d.is32 <;> rfl
  have e2 : (decs.filter fun d => d.is32) = decs.filter fun d => d.is32 == true := by
    congr 1; funext d; cases d.is32 <;> rfl
  refine ⟨?_, ?_⟩
  · simp only [e1]; exact this false
  · simp only [e2]; exact this true

theorem trees_dump_end {order : List Nat → List Nat} (ho : ∀ l, (order l).Perm l) (ts : Trees) :
    ((ts.dump order).2 = .ok () ∧ Both Whole ts) ∨ ((ts.dump order).2 = .error .attributeError ∧ ¬ Both Whole ts) := by
  unfold Trees.dump
  rcases dump_end ho ts.t16 0 with ⟨h1, h2⟩ | ⟨h1, h2⟩
  · cases hd : ts.t16.dump order 0 with
    | mk l r =>
      rw [hd] at h1
      cases h1
      rcases dump_end ho ts.t32 0 with ⟨h3, h4⟩ | ⟨h3, h4⟩
      · exact .inl ⟨h3, h2, h4⟩
      · exact .inr ⟨h3, fun h => h4 h.2⟩
  · cases hd : ts.t16.dump order 0 with
    | mk l r =>
      rw [hd] at h1
      cases h1
      exact .inr ⟨rfl, fun h => h2 h.1⟩

/-- **C95.** After any sequence of words has been decoded, the dump of the program's tree is complete if and only if none of
them failed with `AttributeError`; otherwise it fails itself with `AttributeError`. -/
theorem dump_after {order : List Nat → List Nat} (ho : ∀ l, (order l).Perm l) (hist : List (List Nat × Int)) :
    (((C37.after trees hist).dump order).2 = .ok () ↔ ∀ x ∈ hist, (trees.decode x.1 x.2).1 ≠ .error .attributeError) ∧
    (((C37.after trees hist).dump order).2 = .ok () ∨ ((C37.after trees hist).dump order).2 = .error .attributeError) := by
  have h := after_whole hist trees_calm
  rcases trees_dump_end ho (C37.after trees hist) with ⟨h1, h2⟩ | ⟨h1, h2⟩
  · exact ⟨⟨fun _ => (h.1 h2).2, fun _ => h1⟩, .inl h1⟩
  · refine ⟨⟨fun h3 => ?_, fun h3 => absurd (h.2 ⟨trees_whole, h3⟩) h2⟩, .inr h1⟩
    rw [h1] at h3
    cases h3

/-- **C95.** The dump of the program's own tree: the 16-bit decoders under the first title, the 32-bit decoders under the
second, each decoder of the table once. -/
theorem program_dump {order : List Nat → List Nat} (ho : ∀ l, (order l).Perm l) :
    ∃ l16 l32, trees.dump order = (.title false :: l16 ++ .title true :: l32, .ok ()) ∧
      ((listed ⟨[], []⟩ l16).map Prod.snd).Perm (decoders.filter fun d => !d.is32) ∧
      ((listed ⟨[], []⟩ l32).map Prod.snd).Perm (decoders.filter fun d => d.is32) := by
  obtain ⟨a1, a2, -⟩ := every_decoder_partial ho (decoders.filter fun d => !d.is32)
  obtain ⟨b1, b2, -⟩ := every_decoder_partial ho (decoders.filter fun d => d.is32)
  refine ⟨_, _, ?_, a2, b2⟩
  rw [trees]
  unfold Trees.dump buildTrees
  simp only
  generalize (build (decoders.filter fun d => !d.is32)).dump order 0 = x at *
  generalize (build (decoders.filter fun d => d.is32)).dump order 0 = y at *
  obtain ⟨l, r⟩ := x
  obtain ⟨l', r'⟩ := y
  cases a1
  cases b1
  rfl

/-- **C95.** The claim fails after an undefined word with no entry in the tree has been decoded. -/
theorem full_claim_false : (trees.dump id).2 = .ok () ∧ ((trees.decode [0x00, 0xb1] 0).2.dump id).2 = .error .attributeError := by
  have h0 := dump_after (order := id) (fun _ => .refl _) []
  have h1 := dump_after (order := id) (fun _ => .refl _) [([0x00, 0xb1], 0)]
  refine ⟨h0.1.2 nofun, h1.2.resolve_left fun h => h1.1.1 h ([0x00, 0xb1], 0) List.mem_cons_self C36.not_only_undefined.1⟩

/-- A tree of the two encodings of LSLS: what its dump lists, and its lines. -/
example : (lists (build (decs.filter fun d => d.mnemonic = c! "lsls")) id).map (fun x => (x.1, x.2.fmt.mask)) =
      [([(0xf800, 0x4000)], 0xffc0), ([(0xf800, 0)], 0xf800)] ∧
    ((build (decs.filter fun d => d.mnemonic = c! "lsls")).dump id 0).1.map (DumpLine.text (fun _ => 0x7f00) id) = [
      c! " 0xf800 =>", c! "   0 : 0x4000", c! "     0x0 =>",
      c! "       0 : <Decoder@0x7f00 lsls ffc0/4080 ['Rdn', 'Rm']>", c! "   1 : 0x0", c! "     0x0 =>",
      c! "       0 : <Decoder@0x7f00 lsls f800/0 ['Rd', 'Rm', 'imm5', 'stype']>"] := by
  decide +kernel

end C95
end Verif
