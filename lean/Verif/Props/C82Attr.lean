import Verif.Props.C82

/-!
# C82 and C36: which words raise `AttributeError`

The dictionaries of the decoder tree are `defaultdict`s: looking up a word for which a node has no child makes one, an empty
list, and its `mask` raises `AttributeError` where `UndefinedInstructionError` is meant. Here the words for which this happens
are listed.
-/

namespace Verif
open Thumb
namespace C82

/-- The ways to the leaves of a tree: the masks and keys on each. -/
def ways : Tree → List (List (Nat × Nat))
  | .leaf _ => [[]]
  | .hole => []
  | .node mask keys child => keys.flatMap fun k => (ways (child k)).map ((mask, k) :: ·)

/-- The leaves of a tree. -/
def leaves : Tree → List (List Dec)
  | .leaf ds => [ds]
  | .hole => []
  | .node _ keys child => keys.flatMap fun k => leaves (child k)

/-- A walk ends in a leaf, or it fails with `AttributeError` and there is no way. -/
theorem walk_ways (w : Nat) (a : Int) : ∀ t : Tree,
    (∃ ds ∈ leaves t, (t.walk w a).1 = tryAll w a ds ∧ ∃ p ∈ ways t, ∀ s ∈ p, w &&& s.1 = s.2) ∨
      ((t.walk w a).1 = .error .attributeError ∧ ∀ p ∈ ways t, ∃ s ∈ p, w &&& s.1 ≠ s.2)
  | .leaf ds => .inl ⟨ds, by simp [leaves], rfl, [], by simp [ways], by simp⟩
  | .hole => .inr ⟨rfl, by simp [ways]⟩
  | .node mask keys child => by
    by_cases hk : w &&& mask ∈ keys
    · have hw : ((Tree.node mask keys child).walk w a).1 = ((child (w &&& mask)).walk w a).1 := by
        simp only [Tree.walk, hk, if_true]
      rw [hw]
      rcases walk_ways w a (child (w &&& mask)) with ⟨ds, h1, h2, p, h3, h4⟩ | ⟨h1, h2⟩
      · refine .inl ⟨ds, ?_, h2, (mask, w &&& mask) :: p, ?_, ?_⟩
        · rw [leaves, List.mem_flatMap]; exact ⟨_, hk, h1⟩
        · rw [ways, List.mem_flatMap]; exact ⟨_, hk, List.mem_map_of_mem h3⟩
        · intro s hs
          rcases List.mem_cons.1 hs with rfl | hs
          · rfl
          · exact h4 s hs
      · refine .inr ⟨h1, fun p hp => ?_⟩
        rw [ways, List.mem_flatMap] at hp
        obtain ⟨k, -, hp⟩ := hp
        obtain ⟨q, hq, rfl⟩ := List.mem_map.1 hp
        by_cases he : w &&& mask = k
        · subst he
          obtain ⟨s, hs, hn⟩ := h2 q hq
          exact ⟨s, List.mem_cons_of_mem _ hs, hn⟩
        · exact ⟨(mask, k), by simp, he⟩
    · refine .inr ⟨by simp only [Tree.walk, hk, if_false], fun p hp => ?_⟩
      rw [ways, List.mem_flatMap] at hp
      obtain ⟨k, hk', hp⟩ := hp
      obtain ⟨q, -, rfl⟩ := List.mem_map.1 hp
      refine ⟨(mask, k), by simp, fun he => hk ?_⟩
      have : w &&& mask = k := he
      rw [this]; exact hk'

/-- The groups of 16 bit words for which there is a leaf: the bits under the first number are the second. -/
def groups16 : List (Nat × Nat) := [
  (0xffff, 0xbf40), (0xffff, 0xbf30), (0xffff, 0xbf20), (0xffff, 0xbf10), (0xffff, 0xbf00), (0xff00, 0xbe00), (0xfe00, 0xb600),
  (0xffc0, 0xb2c0), (0xffc0, 0xb280), (0xffc0, 0xb240), (0xffc0, 0xb200), (0xffc0, 0xbac0), (0xffc0, 0xba40), (0xffc0, 0xba00),
  (0xff80, 0xb080), (0xff80, 0xb000), (0xfe00, 0xb400), (0xfe00, 0xbc00), (0xff00, 0x4400), (0xff87, 0x4780), (0xff87, 0x4700),
  (0xffc0, 0x4380), (0xffc0, 0x4300), (0xffc0, 0x4340), (0xffc0, 0x43c0), (0xffc0, 0x41c0), (0xffc0, 0x4180), (0xffc0, 0x4140),
  (0xffc0, 0x4100), (0xffc0, 0x40c0), (0xffc0, 0x4080), (0xffc0, 0x4040), (0xffc0, 0x4000), (0xffc0, 0x4240), (0xffc0, 0x42c0),
  (0xffc0, 0x4280), (0xffc0, 0x4200), (0xff00, 0x4600), (0xff00, 0x4500), (0xf800, 0x4800), (0xf800, 0x0000), (0xf800, 0x0800),
  (0xf000, 0xd000), (0xfe00, 0x1e00), (0xfe00, 0x1c00), (0xfe00, 0x1a00), (0xfe00, 0x1800), (0xf800, 0x1000), (0xfe00, 0x5e00),
  (0xfe00, 0x5c00), (0xfe00, 0x5a00), (0xfe00, 0x5800), (0xfe00, 0x5600), (0xfe00, 0x5400), (0xfe00, 0x5200), (0xfe00, 0x5000),
  (0xf800, 0x3800), (0xf800, 0x3000), (0xf800, 0xa800), (0xf800, 0xa000), (0xf800, 0x2000), (0xf800, 0x2800), (0xf000, 0xe000),
  (0xf800, 0x8800), (0xf800, 0x8000), (0xf800, 0x7800), (0xf800, 0x7000), (0xf800, 0x6800), (0xf800, 0x6000), (0xf800, 0x9800),
  (0xf800, 0x9000), (0xf800, 0xc800), (0xf800, 0xc000)]

/-- The groups of 32 bit words for which there is a leaf. The first halfword is the low one. -/
def groups32 : List (Nat × Nat) := [
  (0x0fc0fff0, 0x0d00f840), (0x0fc0fff0, 0x0000f840), (0xff70, 0xf850), (0xff70, 0xfa50), (0xf0c0fff0, 0xf080fa10),
  (0xf0f0fff0, 0xf0b0fa90), (0xf0f0fff0, 0xf090fa90), (0xf0f0fff0, 0xf080fa90), (0xff70, 0xfa40), (0xff70, 0xfa00),
  (0xff70, 0xfb00), (0xff70, 0xf820), (0xff70, 0xf800), (0xff70, 0xf930), (0xff70, 0xf910), (0xff70, 0xf830), (0xff70, 0xf810),
  (0xfff0ffff, 0x8f60f3bf), (0xfff0ffff, 0x8f50f3bf), (0xfff0ffff, 0x8f40f3bf), (0xf000fff0, 0x8000f3e0), (0xf000fff0, 0x8000f380),
  (0xf000fff0, 0xa000f7f0), (0xd000f800, 0xd000f000), (0x8000fbe0, 0xf200), (0x8000fbe0, 0xf2a0), (0x8000fbe0, 0xf100),
  (0x8000fbe0, 0xf1a0), (0x8000fbe0, 0xf040), (0x8000fbe0, 0xf240), (0x8000fbe0, 0xf1c0), (0x8000ffef, 0xea4f), (0x8000ffef, 0xea6f),
  (0xffc0, 0xe900), (0xffc0, 0xea00), (0x2000ffd0, 0xe890), (0x2000ffd0, 0xe880)]

/-- The decoder has a leaf for the word. -/
def Grouped (w : Nat) (b : Bool) : Prop := ∃ g ∈ (if b then groups32 else groups16), w &&& g.1 = g.2

instance (w : Nat) (b : Bool) : Decidable (Grouped w b) := by unfold Grouped; exact inferInstance

/-- The last step of a way implies the others. -/
def steps (p : List (Nat × Nat)) (g : Nat × Nat) : Bool :=
  p.getLast? == some g && p.all fun s => g.1 &&& s.1 == s.1 && g.2 &&& s.1 == s.2

set_option maxRecDepth 20000 in
theorem ways16 : (ways trees.t16).map (·.getLast?) = groups16.map some ∧
    (ways trees.t16).all (fun p => groups16.any (steps p)) = true := by
  rw [trees, decoders_eq]
  decide +kernel

set_option maxRecDepth 20000 in
theorem ways32 : (ways trees.t32).map (·.getLast?) = groups32.map some ∧
    (ways trees.t32).all (fun p => groups32.any (steps p)) = true := by
  rw [trees, decoders_eq]
  decide +kernel

theorem way_iff {ps : List (List (Nat × Nat))} {gs : List (Nat × Nat)} (h1 : ps.map (·.getLast?) = gs.map some)
    (h2 : ps.all (fun p => gs.any (steps p)) = true) (w : Nat) :
    (∃ p ∈ ps, ∀ s ∈ p, w &&& s.1 = s.2) ↔ ∃ g ∈ gs, w &&& g.1 = g.2 := by
  have hstep : ∀ p ∈ ps, ∃ g ∈ gs, p.getLast? = some g ∧ ∀ s ∈ p, g.1 &&& s.1 = s.1 ∧ g.2 &&& s.1 = s.2 := by
    intro p hp
    have := List.all_eq_true.1 h2 p hp
    obtain ⟨g, hg, hs⟩ := List.any_eq_true.1 this
    simp only [steps, Bool.and_eq_true, beq_iff_eq, List.all_eq_true] at hs
    exact ⟨g, hg, hs.1, hs.2⟩
  constructor
  · rintro ⟨p, hp, h⟩
    obtain ⟨g, hg, hl, -⟩ := hstep p hp
    exact ⟨g, hg, h g (List.mem_of_getLast? hl)⟩
  · rintro ⟨g, hg, h⟩
    have : some g ∈ ps.map (·.getLast?) := by rw [h1]; exact List.mem_map_of_mem hg
    obtain ⟨p, hp, hl⟩ := List.mem_map.1 this
    obtain ⟨g', -, hl', hs⟩ := hstep p hp
    have e : g' = g := by rw [hl] at hl'; exact (Option.some.inj hl').symm
    subst e
    refine ⟨p, hp, fun s hs' => ?_⟩
    obtain ⟨e1, e2⟩ := hs s hs'
    rw [← e1, ← Nat.and_assoc, h, e2]

theorem grouped_iff (w : Nat) (b : Bool) :
    Grouped w b ↔ ∃ p ∈ ways (if b then trees.t32 else trees.t16), ∀ s ∈ p, w &&& s.1 = s.2 := by
  unfold Grouped
  cases b
  · exact (way_iff ways16.1 ways16.2 w).symm
  · exact (way_iff ways32.1 ways32.2 w).symm

/-- No decoder raises `AttributeError`, so a leaf does not. -/
theorem tryAll_not_attribute {w : Nat} {a : Int} {ds : List Dec} (hs : ∀ d ∈ ds, d ∈ decs) :
    tryAll w a ds ≠ .error .attributeError := by
  intro h
  rcases tryAll_error h with ⟨h1, _⟩ | ⟨d, hd, hc, hi, hx⟩
  · cases h1
  · obtain ⟨c, hm, hg⟩ := allGood.dec d (hs d hd)
    have hf := (check_iff_fits hg.same w).mp hc
    obtain ⟨h1, h2⟩ := hg.correct w a hf
    cases hr : c.raises (field c.enc.pat w) with
    | some e =>
      rw [h1 e hr] at hi; injection hi with hi; subst hi
      rcases kinds c hm _ _ hr with h | h | ⟨h, -⟩ <;> cases h
    | none => obtain ⟨j, hj, _⟩ := h2 hr; rw [hj] at hi; cases hi

theorem leaves_build : ∀ (n : Nat) (ds l : List Dec), l ∈ leaves (buildTree n ds) → ∀ d ∈ l, d ∈ ds
  | 0, ds, l, h, d, hd => by
    rw [buildTree, leaves, List.mem_singleton] at h
    rw [h] at hd; exact hd
  | n + 1, ds, l, h, d, hd => by
    have hleaf : ∀ {l : List Dec}, l ∈ leaves (.leaf (sortDecs ds)) → ∀ d ∈ l, d ∈ ds := by
      intro l h d hd
      rw [leaves, List.mem_singleton] at h
      rw [h] at hd; exact mem_sortDecs.1 hd
    rw [buildTree] at h
    simp only at h
    split at h
    · exact hleaf h d hd
    · split at h
      · exact hleaf h d hd
      · split at h
        · exact hleaf h d hd
        · rw [leaves, List.mem_flatMap] at h
          obtain ⟨k, -, h⟩ := h
          have := leaves_build n _ l h d hd
          exact mem_sortDecs.1 (List.mem_filter.1 this).1

theorem walk_attribute_iff (w : Nat) (a : Int) (b : Bool) :
    ((if b then trees.t32 else trees.t16).walk w a).1 = .error .attributeError ↔ ¬ Grouped w b := by
  rw [grouped_iff]
  have hl : ∀ l ∈ leaves (if b then trees.t32 else trees.t16), ∀ d ∈ l, d ∈ decs := by
    intro l h d hd
    rw [trees, buildTrees, decoders_eq] at h
    cases b
    · exact (List.mem_filter.1 (leaves_build _ _ l h d hd)).1
    · exact (List.mem_filter.1 (leaves_build _ _ l h d hd)).1
  rcases walk_ways w a (if b then trees.t32 else trees.t16) with ⟨ds, h1, h2, h3⟩ | ⟨h1, h2⟩
  · rw [h2]
    exact ⟨fun h => (tryAll_not_attribute (hl ds h1) h).elim, fun h => (h h3).elim⟩
  · refine ⟨fun _ => ?_, fun _ => h1⟩
    rintro ⟨p, hp, h⟩
    obtain ⟨s, hs, hn⟩ := h2 p hp
    exact hn (h s hs)

/-- Decoding bytes is a walk for the word they start with. -/
theorem decode_walk {data : List Nat} (hd : ∀ b ∈ data, b < 256) {w : Nat} {b : Bool} (hw : firstWord data = some (w, b)) (a : Int) :
    (trees.decode data a).1 = ((if b then trees.t32 else trees.t16).walk w a).1 := by
  generalize trees = ts
  match data with
  | [] => cases hw
  | [_] => cases hw
  | b0 :: b1 :: rest =>
    have h0 : b0 < 256 := hd b0 (by simp)
    have e1 : bytesToLe16 (b0 :: b1 :: rest) = .ok (b0 + 256 * b1) := by
      have : bytesToLe16 (b0 :: b1 :: rest) = .ok (b0 ||| (b1 <<< 8)) := rfl
      rw [this, C21.word16 h0]
    have hlen : ¬ (b0 :: b1 :: rest).length < 2 := by simp
    unfold Trees.decode
    rw [if_neg hlen, e1]
    simp only [firstWord] at hw ⊢
    by_cases hb : is32bit (b0 + 256 * b1) = true
    · rw [if_pos hb] at hw ⊢
      match rest with
      | [] => cases hw
      | [b2] => cases hw
      | b2 :: b3 :: rest' =>
        have h1 : b1 < 256 := hd b1 (by simp)
        have h2 : b2 < 256 := hd b2 (by simp)
        have e2 : bytesToLe16 (b0 :: b1 :: b2 :: b3 :: rest') 2 = .ok (b2 + 256 * b3) := by
          have : bytesToLe16 (b0 :: b1 :: b2 :: b3 :: rest') 2 = .ok (b2 ||| (b3 <<< 8)) := rfl
          rw [this, C21.word16 h2]
        have hlen : ¬ (b0 :: b1 :: b2 :: b3 :: rest').length < 4 := by simp
        rw [if_neg hlen, e2]
        simp only [Option.some.injEq, Prod.mk.injEq] at hw ⊢
        obtain ⟨rfl, rfl⟩ := hw
        rw [C21.or_shift (n := 16) (by omega), show (b2 + 256 * b3) * 2 ^ 16 = 65536 * (b2 + 256 * b3) by omega]
        rfl
    · rw [if_neg hb] at hw ⊢
      simp only [Option.some.injEq, Prod.mk.injEq] at hw
      obtain ⟨rfl, rfl⟩ := hw
      rfl

/-- **C82.** Decoding fails with an `AttributeError` if and only if the word is in none of the groups listed above. -/
theorem attribute_error_iff (data : List Nat) (hd : ∀ b ∈ data, b < 256) (hl : 2 ≤ data.length) (a : Int) :
    (trees.decode data a).1 = .error .attributeError ↔ ∃ w b, firstWord data = some (w, b) ∧ ¬ Grouped w b := by
  cases hw : firstWord data with
  | none =>
    have hb := decode_bytes data hd hl a
    rw [hw] at hb
    simp only at hb
    rw [hb]
    simp
  | some p =>
    obtain ⟨w, b⟩ := p
    rw [decode_walk hd hw, walk_attribute_iff]
    constructor
    · exact fun h => ⟨w, b, rfl, h⟩
    · rintro ⟨w', b', e, h⟩
      cases e
      exact h

/-- **C82.** `UndefinedInstructionError` is raised if and only if half an instruction is missing, or the word is in one of the
groups and none of the other outcomes is due. With the other four theorems this determines the kind of every outcome. -/
theorem undefined_iff (data : List Nat) (hd : ∀ b ∈ data, b < 256) (hl : 2 ≤ data.length) (a : Int) :
    (trees.decode data a).1 = .error .undefinedInstruction ↔ ∀ w b, firstWord data = some (w, b) → Grouped w b ∧ ¬ Valid w b ∧ ¬ Hint w b ∧
      ¬ (b = true ∧ fits pushW.pat w = true) ∧
      ∀ e ∈ encodings, e.pat.length = (if b then 32 else 16) → fits e.pat w = true → ¬ Unpredictable e (field e.pat w) := by
  constructor
  · intro h w b hw
    refine ⟨?_, ?_, ?_, ?_, ?_⟩
    · apply Decidable.byContradiction
      intro hg
      have := (attribute_error_iff data hd hl a).2 ⟨w, b, hw, hg⟩
      rw [h] at this; cases this
    · intro hv
      obtain ⟨i, hi⟩ := (decodes_iff data hd hl a).2 ⟨w, b, hw, .inl hv⟩
      rw [h] at hi; cases hi
    · intro hv
      obtain ⟨i, hi⟩ := (decodes_iff data hd hl a).2 ⟨w, b, hw, .inr hv⟩
      rw [h] at hi; cases hi
    · rintro ⟨rfl, hf⟩
      have := (name_error_iff data hd hl a).2 ⟨w, hw, hf⟩
      rw [h] at this; cases this
    · intro e he h1 h2 h3
      have := (unpredictable_iff data hd hl a).2 ⟨w, b, hw, e, he, h1, h2, h3⟩
      rw [h] at this; cases this
  · intro h
    rcases otherwise_undefined_partial data hd hl a fun w b hw => (h w b hw).2 with h1 | ⟨h1, -⟩
    · exact h1
    · obtain ⟨w, b, hw, hg⟩ := (attribute_error_iff data hd hl a).1 h1
      exact (hg (h w b hw).1).elim

/-- The 16 bit words without a leaf, in the words of the manual: CBZ and CBNZ and their surroundings, HLT, the hints other than
NOP, YIELD, WFE, WFI and SEV, IT, and BX and BLX with bits set that should be zero. -/
def Ungrouped16 (w : Nat) : Prop :=
  w / 256 ∈ [0xb1, 0xb3, 0xb8, 0xb9, 0xbb] ∨ w / 64 = 0xba80 / 64 ∨
    (w / 256 = 0xbf ∧ w ∉ [0xbf00, 0xbf10, 0xbf20, 0xbf30, 0xbf40]) ∨ (w / 256 = 0x47 ∧ w % 8 ≠ 0)

instance (w : Nat) : Decidable (Ungrouped16 w) := by unfold Ungrouped16; exact inferInstance

theorem bytewise {h l m k : Nat} (hl : l < 256) :
    (256 * h + l) &&& m = k ↔ h &&& (m / 256) = k / 256 ∧ l &&& (m % 256) = k % 256 := by
  have e1 : ((256 * h + l) &&& m) / 2 ^ 8 = h &&& (m / 256) := by
    rw [Nat.and_div_two_pow]; congr 1; omega
  have e2 : ((256 * h + l) &&& m) % 2 ^ 8 = l &&& (m % 256) := by
    rw [Nat.and_mod_two_pow]; congr 1; omega
  rw [← e1, ← e2]
  omega

/-- What is asked of the low byte for a high byte. -/
def lows (h : Nat) : List (Nat × Nat) :=
  (groups16.filter fun g => Nat.beq (h &&& (g.1 / 256)) (g.2 / 256)).map fun g => (g.1 % 256, g.2 % 256)

/-- `Ungrouped16` for a high byte and a low byte. -/
def ungrouped (h l : Nat) : Bool :=
  Nat.beq h 0xb1 || Nat.beq h 0xb3 || Nat.beq h 0xb8 || Nat.beq h 0xb9 || Nat.beq h 0xbb || (Nat.beq h 0xba && Nat.beq (l / 64) 2) ||
    (Nat.beq h 0xbf && !(Nat.beq (l % 16) 0 && Nat.ble l 0x40)) || (Nat.beq h 0x47 && !Nat.beq (l % 8) 0)

theorem lows_ok : (List.range 232).all (fun h => match lows h with
    | gs => (List.range 256).all fun l => gs.any (fun g => Nat.beq (l &&& g.1) g.2) == !ungrouped h l) = true := by
  decide +kernel

theorem ungrouped_iff {h l : Nat} (hl : l < 256) : ungrouped h l = true ↔ Ungrouped16 (256 * h + l) := by
  unfold Ungrouped16 ungrouped
  simp only [List.mem_cons, List.not_mem_nil, or_false, Bool.or_eq_true, Bool.and_eq_true, Nat.beq_eq, Bool.not_eq_true', Bool.and_eq_false_iff]
  have e1 : (256 * h + l) / 256 = h := by omega
  have e2 : (256 * h + l) % 8 = l % 8 := by omega
  have t1 : Nat.beq (l % 16) 0 = false ↔ l % 16 ≠ 0 := by rw [← Bool.not_eq_true, Nat.beq_eq]
  have t2 : Nat.ble l 0x40 = false ↔ ¬ l ≤ 0x40 := by rw [← Bool.not_eq_true, Nat.ble_eq]
  have t3 : Nat.beq (l % 8) 0 = false ↔ l % 8 ≠ 0 := by rw [← Bool.not_eq_true, Nat.beq_eq]
  rw [e1, e2, t1, t2, t3]
  omega

theorem halfwords {h l : Nat} (hh : h < 232) (hl : l < 256) : Grouped (256 * h + l) false ↔ ¬ Ungrouped16 (256 * h + l) := by
  have h1 := List.all_eq_true.1 lows_ok h (List.mem_range.2 hh)
  have h2 := List.all_eq_true.1 h1 l (List.mem_range.2 hl)
  have h3 : (lows h).any (fun g => Nat.beq (l &&& g.1) g.2) = !ungrouped h l := by simpa using h2
  have h4 : Grouped (256 * h + l) false ↔ (lows h).any (fun g => Nat.beq (l &&& g.1) g.2) = true := by
    unfold Grouped lows
    rw [List.any_eq_true]
    constructor
    · rintro ⟨g, hg, e⟩
      obtain ⟨e1, e2⟩ := (bytewise hl).1 e
      exact ⟨_, List.mem_map_of_mem (List.mem_filter.2 ⟨hg, by rw [Nat.beq_eq]; exact e1⟩), by rw [Nat.beq_eq]; exact e2⟩
    · rintro ⟨q, hq, e⟩
      obtain ⟨g, hg, rfl⟩ := List.mem_map.1 hq
      obtain ⟨hg, e1⟩ := List.mem_filter.1 hg
      rw [Nat.beq_eq] at e e1
      exact ⟨g, hg, (bytewise hl).2 ⟨e1, e⟩⟩
  rw [h4, h3, ← ungrouped_iff hl]
  simp

/-- **C82.** For 16 bit words `AttributeError` is raised for these, and for no others. -/
theorem attribute_error16_iff (b0 b1 : Nat) (h0 : b0 < 256) (h1 : b1 < 0xe8) (rest : List Nat) (hr : ∀ b ∈ rest, b < 256) (a : Int) :
    (trees.decode (b0 :: b1 :: rest) a).1 = .error .attributeError ↔ Ungrouped16 (256 * b1 + b0) := by
  have hd : ∀ b ∈ b0 :: b1 :: rest, b < 256 := by
    intro b hb
    rcases List.mem_cons.1 hb with rfl | hb
    · exact h0
    · rcases List.mem_cons.1 hb with rfl | hb
      · omega
      · exact hr b hb
  have hw : firstWord (b0 :: b1 :: rest) = some (256 * b1 + b0, false) := by
    have : is32bit (b0 + 256 * b1) = false := by
      have : ∀ h < 232, ∀ k ∈ [0xf8, 0xf0, 0xe8], h &&& 0xf8 ≠ k := by decide +kernel
      rw [← Bool.not_eq_true]
      intro hc
      simp only [is32bit, List.contains_eq_mem, decide_eq_true_eq] at hc
      have hs : ∀ k, b0 + 256 * b1 &&& 0xf800 = 256 * k → b1 &&& 0xf8 = k := by
        intro k e
        rw [Nat.add_comm] at e
        have := ((bytewise h0).1 e).1
        rw [Nat.mul_div_cancel_left _ (by decide)] at this
        exact this
      simp only [List.mem_cons, List.not_mem_nil, or_false] at hc
      rcases hc with hc | hc | hc
      · exact this b1 h1 0xf8 (by simp) (hs _ hc)
      · exact this b1 h1 0xf0 (by simp) (hs _ hc)
      · exact this b1 h1 0xe8 (by simp) (hs _ hc)
    simp only [firstWord, this]
    simp; omega
  rw [attribute_error_iff _ hd (by simp) a]
  have := halfwords h1 h0
  simp only [hw, Option.some.injEq, Prod.mk.injEq]
  constructor
  · rintro ⟨w, b, ⟨rfl, rfl⟩, h⟩
    exact Decidable.byContradiction fun hn => h (this.2 hn)
  · intro h
    exact ⟨_, _, ⟨rfl, rfl⟩, fun hg => (this.1 hg) h⟩

/-- IT and CBZ, and `cps` with a bit that should be set, which the tree does have a leaf for. -/
example : (trees.decode [0x08, 0xbf] 0).1 = .error .attributeError ∧ (trees.decode [0x00, 0xb1] 0).1 = .error .attributeError ∧
    (trees.decode [0x03, 0xb6] 0).1 = .error .undefinedInstruction := by
  refine ⟨(attribute_error16_iff _ _ (by decide) (by decide) [] (by simp) 0).2 (by decide),
    (attribute_error16_iff _ _ (by decide) (by decide) [] (by simp) 0).2 (by decide), ?_⟩
  rw [trees, decoders_eq]; decide +kernel

/-- UDIV and the coprocessor instructions end in `AttributeError`. -/
example : (trees.decode [0xb1, 0xfb, 0xf2, 0xf0] 0).1 = .error .attributeError ∧
    (trees.decode [0x00, 0xee, 0x10, 0x0a] 0).1 = .error .attributeError := by
  constructor
  · exact (attribute_error_iff _ (by decide) (by decide) 0).2 ⟨0xf0f2fbb1, true, by decide, by decide⟩
  · exact (attribute_error_iff _ (by decide) (by decide) 0).2 ⟨0x0a10ee00, true, by decide, by decide⟩

end C82
end Verif
