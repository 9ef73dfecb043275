import Verif.Props.C82Attr
import Verif.Lemmas.Wide

/-!
# C82: what every halfword is decoded to

All 16-bit words, by ranges.
-/

namespace Verif
open Thumb
namespace C82

/-! ### Diagrams as masks -/

/-- The number with these bits. -/
def bitsOf (f : Nat → Bool) : Nat → Nat
  | 0 => 0
  | n + 1 => bitsOf f n ||| (if f n then 2 ^ n else 0)

theorem testBit_bitsOf (f : Nat → Bool) (k : Nat) : ∀ n, (bitsOf f n).testBit k = (decide (k < n) && f k)
  | 0 => by simp [bitsOf]
  | n + 1 => by
    unfold bitsOf
    rw [Nat.testBit_or, testBit_bitsOf f k n]
    by_cases h : n = k
    · subst h
      cases f n <;> simp
    · have : (if f n = true then 2 ^ n else 0).testBit k = false := by
        split
        · rw [Nat.testBit_two_pow]; simpa using h
        · simp
      rw [this, Bool.or_false]
      congr 1
      exact decide_eq_decide.2 (by omega)

/-- The fixed bits of a diagram, and their values. -/
def maskOf (p : Str) : Nat × Nat :=
  (bitsOf (fun k => letter p k == '0' || letter p k == '1') 16, bitsOf (fun k => letter p k == '1') 16)

theorem fits_mask {p : Str} (hl : p.length = 16) (w : Nat) : fits p w = true ↔ w &&& (maskOf p).1 = (maskOf p).2 := by
  unfold fits maskOf
  rw [List.all_eq_true, hl]
  constructor
  · intro h
    apply Nat.eq_of_testBit_eq
    intro k
    rw [Nat.testBit_and, testBit_bitsOf, testBit_bitsOf]
    by_cases hk : k < 16
    · have := h k (List.mem_range.2 hk)
      simp only [hk, decide_true, Bool.true_and]
      by_cases h0 : letter p k = '0'
      · simp_all
      · by_cases h1 : letter p k = '1'
        · simp_all
        · have e0 : (letter p k == '0') = false := by simpa using h0
          have e1 : (letter p k == '1') = false := by simpa using h1
          simp [e0, e1]
    · simp [hk]
  · intro h k hk
    have hk := List.mem_range.1 hk
    have := congrArg (fun n => n.testBit k) h
    simp only [Nat.testBit_and, testBit_bitsOf, hk, decide_true, Bool.true_and] at this
    by_cases h0 : letter p k = '0'
    · simp_all
    · by_cases h1 : letter p k = '1'
      · simp_all
      · simp [h0, h1]

/-- The diagrams with 16 bits. -/
def masks16 : List (Nat × Nat) := [
  (0xffc0, 0x4380), (0xffc0, 0x4300), (0xffc0, 0x41c0), (0xffc0, 0x4180), (0xffc0, 0x4140), (0xffc0, 0x4100),
  (0xffc0, 0x40c0), (0xffc0, 0x4080), (0xffc0, 0x4040), (0xffc0, 0x4000), (0xfe00, 0x1e00), (0xfe00, 0x1c00),
  (0xf800, 0x3800), (0xf800, 0x3000), (0xfe00, 0x1a00), (0xfe00, 0x1800), (0xff00, 0x4400), (0xf800, 0xa800),
  (0xff78, 0x4468), (0xff87, 0x4485), (0xff80, 0xb080), (0xff80, 0xb000), (0xf800, 0x1000), (0xf800, 0x0800),
  (0xf800, 0x0000), (0xffc0, 0x4240), (0xffc0, 0x4340), (0xf800, 0xa000), (0xffc0, 0xb2c0), (0xffc0, 0xb280),
  (0xffc0, 0xb240), (0xffc0, 0xb200), (0xffc0, 0xbac0), (0xffc0, 0xba40), (0xffc0, 0xba00), (0xff00, 0x4600),
  (0xffc0, 0x0000), (0xf800, 0x2000), (0xffc0, 0x43c0), (0xf800, 0x2800), (0xffc0, 0x42c0), (0xffc0, 0x4280),
  (0xff00, 0x4500), (0xffc0, 0x4200), (0xf000, 0xd000), (0xf800, 0xe000), (0xff87, 0x4780), (0xff87, 0x4700),
  (0xfe00, 0x5e00), (0xfe00, 0x5c00), (0xfe00, 0x5a00), (0xfe00, 0x5800), (0xfe00, 0x5600), (0xfe00, 0x5400),
  (0xfe00, 0x5200), (0xfe00, 0x5000), (0xf800, 0x8800), (0xf800, 0x8000), (0xf800, 0x7800), (0xf800, 0x7000),
  (0xf800, 0x6800), (0xf800, 0x6000), (0xf800, 0x4800), (0xf800, 0x9800), (0xf800, 0x9000), (0xfe00, 0xb400),
  (0xfe00, 0xbc00), (0xf800, 0xc800), (0xf800, 0xc000), (0xffec, 0xb660), (0xff00, 0xbe00), (0xffff, 0xbf40),
  (0xffff, 0xbf30), (0xffff, 0xbf20), (0xffff, 0xbf10), (0xffff, 0xbf00), (0xff00, 0xdf00), (0xff00, 0xde00)]

theorem masks16_eq : ((Case.all.map (·.enc.pat)).filter fun p => p.length == 16).map maskOf = masks16 := by decide +kernel

theorem some_fits_iff (w : Nat) : (∃ c ∈ Case.all, c.enc.pat.length = 16 ∧ fits c.enc.pat w = true) ↔ ∃ g ∈ masks16, w &&& g.1 = g.2 := by
  rw [← masks16_eq]
  constructor
  · rintro ⟨c, hc, hl, hf⟩
    exact ⟨_, List.mem_map_of_mem (List.mem_filter.2 ⟨List.mem_map_of_mem hc, by simpa using hl⟩), (fits_mask hl w).1 hf⟩
  · rintro ⟨g, hg, h⟩
    obtain ⟨p, hp, rfl⟩ := List.mem_map.1 hg
    obtain ⟨hp, hl⟩ := List.mem_filter.1 hp
    obtain ⟨c, hc, rfl⟩ := List.mem_map.1 hp
    have hl : c.enc.pat.length = 16 := by simpa using hl
    exact ⟨c, hc, hl, (fits_mask hl w).2 h⟩

/-! ### The ranges -/

/-- The words around CPS that are no instructions. -/
def Unknown16 (w : Nat) : Prop := (0xb600 ≤ w ∧ w < 0xb660) ∨ (0xb664 ≤ w ∧ w < 0xb670) ∨ (0xb674 ≤ w ∧ w < 0xb800)

instance (w : Nat) : Decidable (Unknown16 w) := by unfold Unknown16; exact inferInstance

/-- PUSH, POP, LDM and STM with no registers, and CPS with no flag. -/
def Refused16 (w : Nat) : Prop := w ∈ [0xb400, 0xbc00, 0xb660, 0xb670] ∨ (0xc000 ≤ w ∧ w < 0xd000 ∧ w % 256 = 0)

instance (w : Nat) : Decidable (Refused16 w) := by unfold Refused16; exact inferInstance

/-- What is asked of the low byte for a high byte. -/
def lows16 (h : Nat) : List (Nat × Nat) :=
  (masks16.filter fun g => Nat.beq (h &&& (g.1 / 256)) (g.2 / 256)).map fun g => (g.1 % 256, g.2 % 256)

/-- `Unknown16` for a high byte and a low byte. -/
def unknown (h l : Nat) : Bool :=
  (Nat.beq h 0xb6 && (Nat.blt l 0x60 || (Nat.ble 0x64 l && Nat.blt l 0x70) || Nat.ble 0x74 l)) || Nat.beq h 0xb7

theorem lows16_ok : (List.range 232).all (fun h => match lows16 h with
    | gs => (List.range 256).all fun l => gs.any (fun g => Nat.beq (l &&& g.1) g.2) == !(ungrouped h l || unknown h l)) = true := by
  decide +kernel

theorem unknown_iff {h l : Nat} (hl : l < 256) : unknown h l = true ↔ Unknown16 (256 * h + l) := by
  unfold Unknown16 unknown
  simp only [Bool.or_eq_true, Bool.and_eq_true, Nat.beq_eq, Nat.ble_eq, Nat.blt_eq]
  omega

theorem fits16 {h l : Nat} (hh : h < 232) (hl : l < 256) : (∃ c ∈ Case.all, c.enc.pat.length = 16 ∧ fits c.enc.pat (256 * h + l) = true) ↔
    ¬ Ungrouped16 (256 * h + l) ∧ ¬ Unknown16 (256 * h + l) := by
  have h1 := List.all_eq_true.1 lows16_ok h (List.mem_range.2 hh)
  have h2 := List.all_eq_true.1 h1 l (List.mem_range.2 hl)
  have h3 : (lows16 h).any (fun g => Nat.beq (l &&& g.1) g.2) = !(ungrouped h l || unknown h l) := by simpa using h2
  have h4 : (∃ g ∈ masks16, (256 * h + l) &&& g.1 = g.2) ↔ (lows16 h).any (fun g => Nat.beq (l &&& g.1) g.2) = true := by
    unfold lows16
    rw [List.any_eq_true]
    constructor
    · rintro ⟨g, hg, e⟩
      obtain ⟨e1, e2⟩ := (bytewise hl).1 e
      exact ⟨_, List.mem_map_of_mem (List.mem_filter.2 ⟨hg, by rw [Nat.beq_eq]; exact e1⟩), by rw [Nat.beq_eq]; exact e2⟩
    · rintro ⟨q, hq, e⟩
      obtain ⟨g, hg, rfl⟩ := List.mem_map.1 hq
      obtain ⟨hg, e1⟩ := List.mem_filter.1 hg
      rw [Nat.beq_eq] at e e1
      exact ⟨g, hg, (bytewise hl).2 ⟨e1, e⟩⟩
  rw [some_fits_iff, h4, h3, ← ungrouped_iff hl, ← unknown_iff hl]
  simp

/-! ### The words that are refused -/

theorem fits_bytes {p : Str} (hl : p.length = 16) {m v : Nat} (hm : maskOf p = (m, v)) {h l : Nat} (h1 : l < 256) :
    fits p (256 * h + l) = true ↔ h &&& (m / 256) = v / 256 ∧ l &&& (m % 256) = v % 256 := by
  rw [fits_mask hl, hm]
  exact bytewise h1

theorem push_refused {h l : Nat} (h0 : h < 256) (h1 : l < 256) :
    (fits push.pat (256 * h + l) = true ∧ push.ok (field push.pat (256 * h + l)) = false) ↔ 256 * h + l = 0xb400 := by
  have hm : field push.pat (256 * h + l) 'm' = (256 * h + l) / 256 % 2 :=
    (C104.field_of [(8, 1)] (by decide +kernel) _).trans (by simp only [C104.val, List.foldl]; omega)
  have hr : field push.pat (256 * h + l) 'r' = (256 * h + l) % 256 :=
    (C104.field_of [(0, 8)] (by decide +kernel) _).trans (by simp only [C104.val, List.foldl]; omega)
  have hh : ∀ h < 256, h &&& 0xfe = 0xb4 ↔ (h = 0xb4 ∨ h = 0xb5) := by decide +kernel
  rw [fits_bytes rfl (m := 0xfe00) (v := 0xb400) (by decide +kernel) h1]
  simp only [push, decide_eq_false_iff_not] at hm hr ⊢
  rw [hm, hr]
  have := hh h h0
  simp only [Nat.reduceDiv, Nat.reduceMod, Nat.and_zero, and_true, this]
  omega

theorem pop_refused {h l : Nat} (h0 : h < 256) (h1 : l < 256) :
    (fits pop.pat (256 * h + l) = true ∧ pop.ok (field pop.pat (256 * h + l)) = false) ↔ 256 * h + l = 0xbc00 := by
  have hm : field pop.pat (256 * h + l) 'p' = (256 * h + l) / 256 % 2 :=
    (C104.field_of [(8, 1)] (by decide +kernel) _).trans (by simp only [C104.val, List.foldl]; omega)
  have hr : field pop.pat (256 * h + l) 'r' = (256 * h + l) % 256 :=
    (C104.field_of [(0, 8)] (by decide +kernel) _).trans (by simp only [C104.val, List.foldl]; omega)
  have hh : ∀ h < 256, h &&& 0xfe = 0xbc ↔ (h = 0xbc ∨ h = 0xbd) := by decide +kernel
  rw [fits_bytes rfl (m := 0xfe00) (v := 0xbc00) (by decide +kernel) h1]
  simp only [pop, decide_eq_false_iff_not] at hm hr ⊢
  rw [hm, hr]
  have := hh h h0
  simp only [Nat.reduceDiv, Nat.reduceMod, Nat.and_zero, and_true, this]
  omega

theorem ldm_refused {h l : Nat} (h0 : h < 256) (h1 : l < 256) :
    (fits ldm.pat (256 * h + l) = true ∧ ldm.ok (field ldm.pat (256 * h + l)) = false) ↔ (0xc8 ≤ h ∧ h < 0xd0 ∧ l = 0) := by
  have hr : field ldm.pat (256 * h + l) 'r' = (256 * h + l) % 256 :=
    (C104.field_of [(0, 8)] (by decide +kernel) _).trans (by simp only [C104.val, List.foldl]; omega)
  have hh : ∀ h < 256, h &&& 0xf8 = 0xc8 ↔ (0xc8 ≤ h ∧ h < 0xd0) := by decide +kernel
  rw [fits_bytes rfl (m := 0xf800) (v := 0xc800) (by decide +kernel) h1]
  simp only [ldm, decide_eq_false_iff_not] at hr ⊢
  rw [hr]
  have := hh h h0
  simp only [Nat.reduceDiv, Nat.reduceMod, Nat.and_zero, and_true, this]
  omega

theorem stm_refused {h l : Nat} (h0 : h < 256) (h1 : l < 256) :
    (fits stm.pat (256 * h + l) = true ∧ stm.ok (field stm.pat (256 * h + l)) = false) ↔ (0xc0 ≤ h ∧ h < 0xc8 ∧ l = 0) := by
  have hr : field stm.pat (256 * h + l) 'r' = (256 * h + l) % 256 :=
    (C104.field_of [(0, 8)] (by decide +kernel) _).trans (by simp only [C104.val, List.foldl]; omega)
  have hh : ∀ h < 256, h &&& 0xf8 = 0xc0 ↔ (0xc0 ≤ h ∧ h < 0xc8) := by decide +kernel
  rw [fits_bytes rfl (m := 0xf800) (v := 0xc000) (by decide +kernel) h1]
  simp only [stm, decide_eq_false_iff_not] at hr ⊢
  rw [hr]
  have := hh h h0
  simp only [Nat.reduceDiv, Nat.reduceMod, Nat.and_zero, and_true, this]
  omega

theorem cps_refused {h l : Nat} (h0 : h < 256) (h1 : l < 256) :
    (fits cps.pat (256 * h + l) = true ∧ cps.ok (field cps.pat (256 * h + l)) = false) ↔ (h = 0xb6 ∧ (l = 0x60 ∨ l = 0x70)) := by
  have hp : field cps.pat (256 * h + l) 'p' = (256 * h + l) / 2 % 2 :=
    (C104.field_of [(1, 1)] (by decide +kernel) _).trans (by simp only [C104.val, List.foldl]; omega)
  have hf : field cps.pat (256 * h + l) 'f' = (256 * h + l) % 2 :=
    (C104.field_of [(0, 1)] (by decide +kernel) _).trans (by simp only [C104.val, List.foldl]; omega)
  have hh : ∀ h < 256, h &&& 0xff = 0xb6 ↔ h = 0xb6 := by decide +kernel
  have hh' : ∀ l < 256, l &&& 0xec = 0x60 ↔ ((0x60 ≤ l ∧ l < 0x64) ∨ (0x70 ≤ l ∧ l < 0x74)) := by decide +kernel
  rw [fits_bytes rfl (m := 0xffec) (v := 0xb660) (by decide +kernel) h1]
  simp only [cps, decide_eq_false_iff_not] at hp hf ⊢
  rw [hp, hf]
  have := hh h h0
  have := hh' l h1
  simp only [Nat.reduceDiv, Nat.reduceMod, *]
  omega

theorem refused16 {h l : Nat} (h0 : h < 256) (h1 : l < 256) :
    (∃ e ∈ encodings, e.pat.length = 16 ∧ fits e.pat (256 * h + l) = true ∧ Unpredictable e (field e.pat (256 * h + l))) ↔
      Refused16 (256 * h + l) := by
  have same : ∀ {e e' : Enc}, e ∈ encodings → e' ∈ encodings → e.pat = e'.pat → e = e' := by
    intro e e' he he' hp
    obtain ⟨c, hc, rfl⟩ := C38.caseOf he
    obtain ⟨c', hc', rfl⟩ := C38.caseOf he'
    rw [same_pat hc hc' hp]
  have a1 : push ∈ encodings := by simp [encodings]
  have a2 : pop ∈ encodings := by simp [encodings]
  have a3 : ldm ∈ encodings := by simp [encodings]
  have a4 : stm ∈ encodings := by simp [encodings]
  have a5 : cps ∈ encodings := by simp [encodings]
  have b1 := push_refused h0 h1
  have b2 := pop_refused h0 h1
  have b3 := ldm_refused h0 h1
  have b4 := stm_refused h0 h1
  have b5 := cps_refused h0 h1
  unfold Refused16
  simp only [List.mem_cons, List.not_mem_nil, or_false]
  constructor
  · rintro ⟨e, he, hl, hf, ⟨hu, ho⟩ | ⟨hu, -, -⟩⟩
    · simp only [checked, List.mem_cons, List.not_mem_nil, or_false] at hu
      rcases hu with hu | hu | hu | hu | hu | hu | hu | hu | hu | hu | hu | hu | hu | hu | hu | hu
      case _ => exact absurd (hu ▸ hl) (by decide)
      case _ => exact absurd (hu ▸ hl) (by decide)
      case _ => exact absurd (hu ▸ hl) (by decide)
      case _ => exact absurd (hu ▸ hl) (by decide)
      case _ => exact absurd (hu ▸ hl) (by decide)
      case _ => exact absurd (hu ▸ hl) (by decide)
      case _ => cases same he a1 hu; have := b1.1 ⟨hf, ho⟩; omega
      case _ => exact absurd (hu ▸ hl) (by decide)
      case _ => cases same he a2 hu; have := b2.1 ⟨hf, ho⟩; omega
      case _ => exact absurd (hu ▸ hl) (by decide)
      case _ => cases same he a3 hu; have := b3.1 ⟨hf, ho⟩; omega
      case _ => cases same he a4 hu; have := b4.1 ⟨hf, ho⟩; omega
      case _ => exact absurd (hu ▸ hl) (by decide)
      case _ => cases same he a5 hu; have := b5.1 ⟨hf, ho⟩; omega
      case _ => exact absurd (hu ▸ hl) (by decide)
      case _ => exact absurd (hu ▸ hl) (by decide)
    · exact absurd (hu ▸ hl) (by decide)
  · intro hr
    have : 256 * h + l = 0xb400 ∨ 256 * h + l = 0xbc00 ∨ (0xc8 ≤ h ∧ h < 0xd0 ∧ l = 0) ∨ (0xc0 ≤ h ∧ h < 0xc8 ∧ l = 0) ∨
        (h = 0xb6 ∧ (l = 0x60 ∨ l = 0x70)) := by omega
    rcases this with hx | hx | hx | hx | hx
    · exact ⟨_, a1, rfl, (b1.2 hx).1, .inl ⟨by simp [checked], (b1.2 hx).2⟩⟩
    · exact ⟨_, a2, rfl, (b2.2 hx).1, .inl ⟨by simp [checked], (b2.2 hx).2⟩⟩
    · exact ⟨_, a3, rfl, (b3.2 hx).1, .inl ⟨by simp [checked], (b3.2 hx).2⟩⟩
    · exact ⟨_, a4, rfl, (b4.2 hx).1, .inl ⟨by simp [checked], (b4.2 hx).2⟩⟩
    · exact ⟨_, a5, rfl, (b5.2 hx).1, .inl ⟨by simp [checked], (b5.2 hx).2⟩⟩

/-! ### The map -/

theorem first16 {b0 b1 : Nat} (h0 : b0 < 256) (h1 : b1 < 0xe8) (rest : List Nat) :
    firstWord (b0 :: b1 :: rest) = some (256 * b1 + b0, false) := by
  have : is32bit (b0 + 256 * b1) = false := by
    have : ∀ h < 232, ∀ k ∈ [0xf8, 0xf0, 0xe8], h &&& 0xf8 ≠ k := by decide +kernel
    rw [← Bool.not_eq_true]
    intro hc
    simp only [is32bit, List.contains_eq_mem, decide_eq_true_eq] at hc
    have hs : ∀ k, b0 + 256 * b1 &&& 0xf800 = 256 * k → b1 &&& 0xf8 = k := by
      intro k e
      rw [Nat.add_comm] at e
      have := ((bytewise h0).1 e).1
      rw [Nat.mul_div_cancel_left _ (by decide)] at this
      exact this
    simp only [List.mem_cons, List.not_mem_nil, or_false] at hc
    rcases hc with hc | hc | hc
    · exact this b1 h1 0xf8 (by simp) (hs _ hc)
    · exact this b1 h1 0xf0 (by simp) (hs _ hc)
    · exact this b1 h1 0xe8 (by simp) (hs _ hc)
  simp only [firstWord, this]
  simp; omega

theorem bytes_ok {b0 b1 : Nat} (h0 : b0 < 256) (h1 : b1 < 0xe8) {rest : List Nat} (hr : ∀ b ∈ rest, b < 256) : ∀ b ∈ b0 :: b1 :: rest, b < 256 := by
  intro b hb
  rcases List.mem_cons.1 hb with rfl | hb
  · exact h0
  · rcases List.mem_cons.1 hb with rfl | hb
    · omega
    · exact hr b hb

/-- **C82.** A halfword is refused as unpredictable if it is PUSH, POP, LDM or STM of nothing, or CPS of nothing, and for no other
reason. -/
theorem unpredictable16_iff (b0 b1 : Nat) (h0 : b0 < 256) (h1 : b1 < 0xe8) (rest : List Nat) (hr : ∀ b ∈ rest, b < 256) (a : Int) :
    (trees.decode (b0 :: b1 :: rest) a).1 = .error .unpredictable ↔ Refused16 (256 * b1 + b0) := by
  rw [unpredictable_iff _ (bytes_ok h0 h1 hr) (by simp) a, ← refused16 (by omega) h0]
  simp only [first16 h0 h1, Option.some.injEq, Prod.mk.injEq]
  constructor
  · rintro ⟨w, b, ⟨rfl, rfl⟩, h⟩
    simpa using h
  · intro h
    exact ⟨_, _, ⟨rfl, rfl⟩, by simpa using h⟩

theorem valid16 {h l : Nat} (h0 : h < 232) (h1 : l < 256) (h2 : ¬ Ungrouped16 (256 * h + l)) (h3 : ¬ Unknown16 (256 * h + l))
    (h4 : ¬ Refused16 (256 * h + l)) : Valid (256 * h + l) false := by
  obtain ⟨c, hc, hl, hf⟩ := (fits16 h0 h1).2 ⟨h2, h3⟩
  have he : c.enc ∈ encodings := by rw [← C38.encodings_eq]; exact List.mem_map_of_mem hc
  have hp : c.enc.pat ≠ pushW.pat := fun e => absurd (e ▸ hl) (by decide)
  have hw : 256 * h + l < 2 ^ 16 := by omega
  cases ho : c.enc.ok (field c.enc.pat (256 * h + l)) with
  | true => exact ⟨c.enc, he, hl, ⟨hl ▸ hw, hf, ho⟩, hp⟩
  | false =>
    rcases invalid c.enc he _ ho with hu | hu | ⟨hu, -⟩ | ⟨hu, -, -⟩
    · exact absurd ((refused16 (by omega) h1).1 ⟨c.enc, he, hl, hf, hu⟩) h4
    · rcases hu with ⟨hu, -⟩ | ⟨hu, -⟩ | ⟨hu, hm⟩ | ⟨hu, -⟩
      · exact absurd (List.all_eq_true.1 (by decide +kernel : regOffset.all (fun p => p.length == 32) = true) _ hu) (by simp [hl])
      · exact absurd (List.all_eq_true.1 (by decide +kernel : literals.all (fun p => p.length == 32) = true) _ hu) (by simp [hl])
      · cases same_pat hc (k' := Case.addSpRegT2) (by simp [Case.all]) hu
        have hf := (fits_bytes rfl (m := 0xff87) (v := 0x4485) (by decide +kernel) h1).1 hf
        have hm' : field addSpRegT2.pat (256 * h + l) 'm' = (256 * h + l) / 8 % 16 :=
          (C104.field_of [(3, 4)] (by decide +kernel) _).trans (by simp only [C104.val, List.foldl]; omega)
        have hm : (256 * h + l) / 8 % 16 = 13 := hm'.symm.trans hm
        have hh : ∀ h < 256, h &&& 0xff = 0x44 → h = 0x44 := by decide +kernel
        have hh' : ∀ l < 256, l &&& 0x87 = 0x85 → l / 8 % 16 = 13 → l = 0xed := by decide +kernel
        have e1 := hh h (by omega) hf.1
        have e2 := hh' l h1 hf.2 (by omega)
        subst e1 e2
        exact ⟨addSpRegT1, by simp [encodings], rfl, ⟨by decide, by decide +kernel, rfl⟩, by decide⟩
      · exact absurd (hu ▸ hl) (by decide)
    · exact (special_words hu he (hl ▸ hw) hf ho).2
    · exact absurd (hint_mem hc hu).2 (by rw [hl]; decide)

/-- **C82.** Every other halfword is decoded, except those of a range around CPS. -/
theorem decodes16_iff (b0 b1 : Nat) (h0 : b0 < 256) (h1 : b1 < 0xe8) (rest : List Nat) (hr : ∀ b ∈ rest, b < 256) (a : Int) :
    (∃ i, (trees.decode (b0 :: b1 :: rest) a).1 = .ok i) ↔
      ¬ Ungrouped16 (256 * b1 + b0) ∧ ¬ Refused16 (256 * b1 + b0) ∧ ¬ Unknown16 (256 * b1 + b0) := by
  constructor
  · rintro ⟨i, hi⟩
    refine ⟨fun h => ?_, fun h => ?_, fun h => ?_⟩
    · rw [(attribute_error16_iff b0 b1 h0 h1 rest hr a).2 h] at hi; cases hi
    · rw [(unpredictable16_iff b0 b1 h0 h1 rest hr a).2 h] at hi; cases hi
    · obtain ⟨c, w, b, hw, hc⟩ := C39.decoded (bytes_ok h0 h1 hr) (by simp) hi
      rw [first16 h0 h1] at hw
      simp only [Option.some.injEq, Prod.mk.injEq] at hw
      obtain ⟨rfl, rfl⟩ := hw
      exact ((fits16 (by omega) h0).1 ⟨c, hc.mem, by simpa using hc.length, hc.fits⟩).2 h
  · rintro ⟨h2, h3, h4⟩
    exact (decodes_iff _ (bytes_ok h0 h1 hr) (by simp) a).2 ⟨_, _, first16 h0 h1 rest, .inl (valid16 (by omega) h0 h2 h4 h3)⟩

/-- **C82.** For a halfword `UndefinedInstruction` is raised in these ranges around CPS, and nowhere else. -/
theorem undefined16_iff (b0 b1 : Nat) (h0 : b0 < 256) (h1 : b1 < 0xe8) (rest : List Nat) (hr : ∀ b ∈ rest, b < 256) (a : Int) :
    (trees.decode (b0 :: b1 :: rest) a).1 = .error .undefinedInstruction ↔ Unknown16 (256 * b1 + b0) := by
  constructor
  · intro h
    apply Decidable.byContradiction
    intro hn
    by_cases h2 : Ungrouped16 (256 * b1 + b0)
    · rw [(attribute_error16_iff b0 b1 h0 h1 rest hr a).2 h2] at h; cases h
    · by_cases h3 : Refused16 (256 * b1 + b0)
      · rw [(unpredictable16_iff b0 b1 h0 h1 rest hr a).2 h3] at h; cases h
      · obtain ⟨i, hi⟩ := (decodes16_iff b0 b1 h0 h1 rest hr a).2 ⟨h2, h3, hn⟩
        rw [h] at hi; cases hi
  · intro h
    rw [undefined_iff _ (bytes_ok h0 h1 hr) (by simp) a]
    intro w b hw
    rw [first16 h0 h1] at hw
    simp only [Option.some.injEq, Prod.mk.injEq] at hw
    obtain ⟨rfl, rfl⟩ := hw
    have hv : ¬ (Valid (256 * b1 + b0) false ∨ Hint (256 * b1 + b0) false) := by
      intro hv
      have := (decodes_iff _ (bytes_ok h0 h1 hr) (by simp) a).2 ⟨_, _, first16 h0 h1 rest, hv⟩
      exact ((decodes16_iff b0 b1 h0 h1 rest hr a).1 this).2.2 h
    have hg := (halfwords h1 h0).2 (fun hu => by
      simp only [Ungrouped16, List.mem_cons, List.not_mem_nil, or_false, not_or] at hu; unfold Unknown16 at h; omega)
    refine ⟨hg, fun hx => hv (.inl hx), fun hx => hv (.inr hx), by simp, ?_⟩
    intro e he hl hf hu
    have := (refused16 (by omega) h0).1 ⟨e, he, by simpa using hl, hf, hu⟩
    simp only [Refused16, List.mem_cons, List.not_mem_nil, or_false] at this
    unfold Unknown16 at h
    omega

/-- PUSH of nothing, a word next to CPS, and LSL. -/
example : (trees.decode [0x00, 0xb4] 0).1 = .error .unpredictable ∧ (trees.decode [0x64, 0xb6] 0).1 = .error .undefinedInstruction ∧
    ∃ i, (trees.decode [0x51, 0x01] 0).1 = .ok i :=
  ⟨(unpredictable16_iff _ _ (by decide) (by decide) [] (by simp) 0).2 (by decide),
    (undefined16_iff _ _ (by decide) (by decide) [] (by simp) 0).2 (by decide),
    (decodes16_iff _ _ (by decide) (by decide) [] (by simp) 0).2 (by decide)⟩

/-- What the manual has 16 bit instructions for on the smallest of the cores (ARMv6-M): everything up to BLX with a register, the
literal loads and all loads and stores, ADR and ADD to SP, the extensions, PUSH and POP of something, CPS of the interrupts, the
three reversals, BKPT, the five hints, LDM and STM of something, and the branches. -/
def Defined16 (w : Nat) : Prop :=
  w < 0x4700 ∨ (0x4700 ≤ w ∧ w < 0x4800 ∧ w % 8 = 0) ∨ (0x4800 ≤ w ∧ w < 0xb100) ∨ (0xb200 ≤ w ∧ w < 0xb300) ∨
  (0xb400 < w ∧ w < 0xb600) ∨ w = 0xb662 ∨ w = 0xb672 ∨ (0xba00 ≤ w ∧ w < 0xba80) ∨ (0xbac0 ≤ w ∧ w < 0xbb00) ∨
  (0xbc00 < w ∧ w < 0xbf00) ∨ w ∈ [0xbf00, 0xbf10, 0xbf20, 0xbf30, 0xbf40] ∨
  (0xc000 ≤ w ∧ w < 0xd000 ∧ w % 256 ≠ 0) ∨ (0xd000 ≤ w ∧ w < 0xe800)

instance (w : Nat) : Decidable (Defined16 w) := by unfold Defined16; exact inferInstance

/-- **C82.** All 16 bit instructions of ARMv6-M are decoded; of the other words, CPS of the fault handlers, and nothing else. -/
theorem coverage16 (b0 b1 : Nat) (h0 : b0 < 256) (h1 : b1 < 0xe8) (rest : List Nat) (hr : ∀ b ∈ rest, b < 256) (a : Int) :
    (∃ i, (trees.decode (b0 :: b1 :: rest) a).1 = .ok i) ↔
      Defined16 (256 * b1 + b0) ∨ 256 * b1 + b0 ∈ [0xb661, 0xb663, 0xb671, 0xb673] := by
  rw [decodes16_iff b0 b1 h0 h1 rest hr a]
  generalize hw : 256 * b1 + b0 = w
  have : w < 0xe800 := by omega
  clear hw
  simp only [Ungrouped16, Refused16, Unknown16, Defined16, List.mem_cons, List.not_mem_nil, or_false, not_or]
  omega

/-- ADDS, and CPS of the fault handlers, which ARMv6-M does not have. -/
example : Defined16 0x1888 ∧ ¬ Defined16 0xb661 ∧ ¬ Defined16 0xb100 := by decide

/-! ### The wide instructions of ARMv6-M -/

/-- The special registers of ARMv6-M: the parts of PSR, the two SPs, PRIMASK and CONTROL. -/
def Special (s : Nat) : Prop := s ∈ [0, 1, 2, 3, 5, 6, 7, 8, 9, 16, 20]

/-- The 32 bit instructions of ARMv6-M, by their two halfwords: BL, the three barriers, UDF.W, MRS and MSR, neither with SP nor PC. -/
def Defined32 (x y : Nat) : Prop :=
  (0xf000 ≤ x ∧ x < 0xf800 ∧ (y / 4096 = 0xd ∨ y / 4096 = 0xf)) ∨ (x = 0xf3bf ∧ 0x8f40 ≤ y ∧ y < 0x8f70) ∨
  (0xf7f0 ≤ x ∧ x < 0xf800 ∧ y / 4096 = 0xa) ∨
  (x = 0xf3ef ∧ ∃ d s, d < 15 ∧ d ≠ 13 ∧ Special s ∧ y = 0x8000 + 256 * d + s) ∨
  (∃ n s, n < 15 ∧ n ≠ 13 ∧ Special s ∧ x = 0xf380 + n ∧ y = 0x8800 + s)

theorem first32 {b0 b1 b2 b3 : Nat} (h0 : b0 < 256) (h1 : 0xf0 ≤ b1) (h1' : b1 < 256) (rest : List Nat) :
    firstWord (b0 :: b1 :: b2 :: b3 :: rest) = some (256 * b1 + b0 + 65536 * (256 * b3 + b2), true) := by
  have : is32bit (b0 + 256 * b1) = true := by
    have : ∀ h < 256, 0xf0 ≤ h → h &&& 0xf8 = 0xf8 ∨ h &&& 0xf8 = 0xf0 := by decide +kernel
    simp only [is32bit, List.contains_eq_mem, decide_eq_true_eq]
    have hs : ∀ k, b1 &&& 0xf8 = k → b0 + 256 * b1 &&& 0xf800 = 256 * k := by
      intro k e
      rw [Nat.add_comm]
      refine (bytewise h0).2 ⟨?_, ?_⟩
      · rw [Nat.mul_div_cancel_left _ (by decide)]; exact e
      · simp
    rcases this b1 h1' h1 with h | h
    · rw [hs _ h]; simp
    · rw [hs _ h]; simp
  simp only [firstWord, this]
  simp; omega

theorem special_ok {s : Nat} (h : Special s) : special s = true ∧ s < 256 := by
  have : ∀ s ∈ [0, 1, 2, 3, 5, 6, 7, 8, 9, 16, 20], special s = true ∧ s < 256 := by decide
  exact this s h

theorem valid32 {x y : Nat} (hx : x < 65536) (hy : y < 65536) (h : Defined32 x y) : Valid (x + 65536 * y) true := by
  have hw : x + 65536 * y < 2 ^ 32 := by omega
  rcases h with ⟨h1, h2, h3⟩ | ⟨h1, h2, h3⟩ | ⟨h1, h2, h3⟩ | ⟨h1, d, s, hd, hd', hs, h3⟩ | ⟨n, s, hn, hn', hs, h2, h3⟩
  · exact ⟨bl, by simp [encodings], rfl, ⟨hw, C104.fits_of [(11, 5, 30), (30, 2, 3), (28, 1, 1)] (by decide +kernel)
      (by simp only [C104.agree, List.all_cons, List.all_nil, Bool.and_true, Bool.and_eq_true, decide_eq_true_eq]; omega), rfl⟩, by decide⟩
  · rcases (by omega : y / 16 = 0x8f4 ∨ y / 16 = 0x8f5 ∨ y / 16 = 0x8f6) with h4 | h4 | h4
    · exact ⟨dsb, by simp [encodings], rfl, ⟨hw, C104.fits_of [(0, 16, 0xf3bf), (20, 12, 0x8f4)] (by decide +kernel)
        (by simp only [C104.agree, List.all_cons, List.all_nil, Bool.and_true, Bool.and_eq_true, decide_eq_true_eq]; omega), rfl⟩, by decide⟩
    · exact ⟨dmb, by simp [encodings], rfl, ⟨hw, C104.fits_of [(0, 16, 0xf3bf), (20, 12, 0x8f5)] (by decide +kernel)
        (by simp only [C104.agree, List.all_cons, List.all_nil, Bool.and_true, Bool.and_eq_true, decide_eq_true_eq]; omega), rfl⟩, by decide⟩
    · exact ⟨isb, by simp [encodings], rfl, ⟨hw, C104.fits_of [(0, 16, 0xf3bf), (20, 12, 0x8f6)] (by decide +kernel)
        (by simp only [C104.agree, List.all_cons, List.all_nil, Bool.and_true, Bool.and_eq_true, decide_eq_true_eq]; omega), rfl⟩, by decide⟩
  · exact ⟨udfW, by simp [encodings], rfl, ⟨hw, C104.fits_of [(4, 12, 0xf7f), (28, 4, 0xa)] (by decide +kernel)
      (by simp only [C104.agree, List.all_cons, List.all_nil, Bool.and_true, Bool.and_eq_true, decide_eq_true_eq]; omega), rfl⟩, by decide⟩
  · obtain ⟨hs, hs'⟩ := special_ok hs
    have f1 : field mrs.pat (x + 65536 * y) 'd' = d :=
      (C104.field_of [(24, 4)] (by decide +kernel) _).trans (by simp only [C104.val, List.foldl]; omega)
    have f2 : field mrs.pat (x + 65536 * y) 's' = s :=
      (C104.field_of [(16, 8)] (by decide +kernel) _).trans (by simp only [C104.val, List.foldl]; omega)
    refine ⟨mrs, by simp [encodings], rfl, ⟨hw, C104.fits_of [(0, 16, 0xf3ef), (28, 4, 8)] (by decide +kernel)
      (by simp only [C104.agree, List.all_cons, List.all_nil, Bool.and_true, Bool.and_eq_true, decide_eq_true_eq]; omega), ?_⟩, by decide⟩
    generalize x + 65536 * y = w at f1 f2
    simp only [mrs, decide_eq_true_eq] at f1 f2 ⊢
    rw [f1, f2]
    exact ⟨by simp [plainReg]; omega, hs⟩
  · obtain ⟨hs, hs'⟩ := special_ok hs
    have f1 : field msr.pat (x + 65536 * y) 'n' = n :=
      (C104.field_of [(0, 4)] (by decide +kernel) _).trans (by simp only [C104.val, List.foldl]; omega)
    have f2 : field msr.pat (x + 65536 * y) 's' = s :=
      (C104.field_of [(16, 8)] (by decide +kernel) _).trans (by simp only [C104.val, List.foldl]; omega)
    have f3 : field msr.pat (x + 65536 * y) 'k' = 2 :=
      (C104.field_of [(26, 2)] (by decide +kernel) _).trans (by simp only [C104.val, List.foldl]; omega)
    refine ⟨msr, by simp [encodings], rfl, ⟨hw, C104.fits_of [(4, 12, 0xf38), (28, 4, 8), (24, 2, 0)] (by decide +kernel)
      (by simp only [C104.agree, List.all_cons, List.all_nil, Bool.and_true, Bool.and_eq_true, decide_eq_true_eq]; omega), ?_⟩, by decide⟩
    generalize x + 65536 * y = w at f1 f2 f3
    simp only [msr, decide_eq_true_eq] at f1 f2 f3 ⊢
    rw [f1, f2, f3]
    exact ⟨by simp [plainReg]; omega, hs, by decide, .inl rfl⟩

/-- **C82.** All 32 bit instructions of ARMv6-M are decoded. -/
theorem coverage32 (b0 b1 b2 b3 : Nat) (rest : List Nat) (hd : ∀ b ∈ b0 :: b1 :: b2 :: b3 :: rest, b < 256) (a : Int)
    (h : Defined32 (256 * b1 + b0) (256 * b3 + b2)) : ∃ i, (trees.decode (b0 :: b1 :: b2 :: b3 :: rest) a).1 = .ok i := by
  have h0 := hd b0 (by simp)
  have h1 := hd b1 (by simp)
  have h2 := hd b2 (by simp)
  have h3 := hd b3 (by simp)
  have h4 : 0xf0 ≤ b1 := by
    rcases h with h | h | h | h | ⟨n, s, h⟩ <;> omega
  exact (decodes_iff _ hd (by simp) a).2 ⟨_, _, first32 h0 h4 h1 rest, .inl (valid32 (by omega) (by omega) h)⟩

/-- DMB SY, MRS of PRIMASK, and a call. -/
example : (∃ i, (trees.decode [0xbf, 0xf3, 0x5f, 0x8f] 0).1 = .ok i) ∧ (∃ i, (trees.decode [0xef, 0xf3, 0x10, 0x83] 0).1 = .ok i) ∧
    ∃ i, (trees.decode [0x00, 0xf0, 0x02, 0xf8] 0).1 = .ok i := by
  refine ⟨coverage32 _ _ _ _ [] (by decide) 0 (.inr (.inl (by decide))),
    coverage32 _ _ _ _ [] (by decide) 0 (.inr (.inr (.inr (.inl ⟨rfl, 3, 16, by decide, by decide, by simp [Special], rfl⟩)))),
    coverage32 _ _ _ _ [] (by decide) 0 (.inl (by decide))⟩

end C82
end Verif
