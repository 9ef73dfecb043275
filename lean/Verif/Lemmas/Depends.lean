import Verif.Lemmas.MemApart

/-!
# What executing an action depends on
-/

namespace Verif
open BS CpuM Thumb Exec

namespace Thumb

/-- The registers of a second operand. -/
def Src.regs : Src → List Int
  | .reg m => [(m : Int)]
  | .imm _ => []

/-- The registers of an offset. -/
def Off.regs : Off → List Int
  | .reg m _ => [(m : Int)]
  | .imm _ => []

/-- The flags that a shift by a constant looks at: RRX shifts C in, and a shift by
nothing passes C on. -/
def shiftFlags (flags : Bool) (sh : SRType × Nat) : List Nat :=
  if sh.1 = .rrx ∨ (flags ∧ (sh.1 = .none ∨ sh.2 = 0)) then [29] else []

/-- The special registers that MRS looks at: CONTROL for the privilege and the one that
is read. -/
def specials (sysm : Nat) : List Int :=
  if sysm / 8 = 1 then (if sysm % 8 = 0 then [-4, 17] else if sysm % 8 = 1 then [-4, 18] else [])
  else if sysm / 8 = 2 then
    (if sysm % 8 = 0 then [-4, -1] else if sysm % 8 = 1 ∨ sysm % 8 = 2 then [-4, -2] else if sysm % 8 = 3 then [-4, -3]
      else if sysm % 8 = 4 then [-4] else [])
  else []

/-- The registers an action looks at, besides PC and xPSR. -/
def Act.sources : Act → List Int
  | .addSub _ _ _ _ n src => (n : Int) :: src.regs
  | .rsb _ _ n _ => [(n : Int)]
  | .logic _ _ _ n m => [(n : Int), (m : Int)]
  | .bic _ _ n m => [(n : Int), (m : Int)]
  | .shiftImm _ _ _ m _ => [(m : Int)]
  | .shiftReg _ _ _ n m => [(n : Int), (m : Int)]
  | .mul _ _ n m => [(n : Int), (m : Int)]
  | .adr _ _ _ => []
  | .extend _ _ _ _ m => [(m : Int)]
  | .rev _ _ m => [(m : Int)]
  | .mov _ _ _ src _ => src.regs
  | .mvnShift _ _ _ _ => []
  | .cmp _ n src => (n : Int) :: src.regs
  | .tst n m _ => [(n : Int), (m : Int)]
  | .branch _ _ => []
  | .bl _ => []
  | .blx m => [(m : Int)]
  | .bx m => [(m : Int)]
  | .load _ _ _ n off => (n : Int) :: off.regs
  | .store _ t n off => (t : Int) :: (n : Int) :: off.regs
  | .loadLit _ _ _ _ _ => []
  | .push r => 13 :: (low15 r).map Int.ofNat
  | .pop _ => [13]
  | .ldm n _ _ => [(n : Int)]
  | .stm n _ r => (n : Int) :: (low15 r).map Int.ofNat
  | .cps _ _ _ => []
  | .mrs _ sysm => specials sysm.toNat
  | .msr _ _ _ => []
  | .plain => []

/-- The flags a condition looks at. -/
def condFlags (cond : Nat) : List Nat :=
  if cond < 2 then [30] else if cond < 4 then [29] else if cond < 6 then [31] else if cond < 8 then [28]
  else if cond < 10 then [29, 30] else if cond < 12 then [31, 28] else if cond < 14 then [30, 31, 28] else []

/-- The bits of xPSR an action looks at. A register-controlled shift may be by nothing
and then passes C on. -/
def Act.flagsRead : Act → List Nat
  | .addSub _ carry _ _ _ _ => if carry then [29] else []
  | .shiftImm t flags _ _ k => shiftFlags flags (t, k)
  | .shiftReg _ flags _ _ _ => if flags then [29] else []
  | .tst _ _ sh => shiftFlags true sh
  | .branch cond _ => condFlags cond
  | .load _ _ _ _ (.reg _ sh) => shiftFlags false sh
  | .store _ _ _ (.reg _ sh) => shiftFlags false sh
  | .mrs _ sysm => if sysm.toNat / 8 = 0 ∧ sysm.toNat % 2 = 1 then List.range 6 else []
  | _ => []

end Thumb

/-- From `a` and `b` to `a'` and `b'` every register other than xPSR and every bit of
xPSR has become equal or stayed as it was in both. -/
structure Frame (a b a' b' : Arm) : Prop where
  regs : ∀ k : Int, k ≠ 16 → a'.reg k = b'.reg k ∨ (a'.reg k = a.reg k ∧ b'.reg k = b.reg k)
  bits : ∀ n : Nat, (a'.reg 16).getLsbD n = (b'.reg 16).getLsbD n ∨
    ((a'.reg 16).getLsbD n = (a.reg 16).getLsbD n ∧ (b'.reg 16).getLsbD n = (b.reg 16).getLsbD n)

namespace Frame

theorem refl (a b : Arm) : Frame a b a b := ⟨fun _ _ => .inr ⟨rfl, rfl⟩, fun _ => .inr ⟨rfl, rfl⟩⟩

theorem set {a b a' b' : Arm} (h : Frame a b a' b') {k : Int} {v w : Word} (hvw : v = w) (hk : k ≠ 16) :
    Frame a b (a'.set k v) (b'.set k w) := by
  subst hvw
  refine ⟨fun j hj => ?_, fun n => ?_⟩
  · by_cases hjk : Apart j k
    · rw [set_apart hjk, set_apart hjk]; exact h.regs j hj
    · left
      unfold Apart at hjk
      have : j = k ∨ (k = 13 ∧ j = 17) ∨ (k = 17 ∧ j = 13) := by omega
      unfold Arm.set
      simp only [if_pos this]
  · have : Apart 16 k := ⟨by omega, by omega, by omega⟩
    rw [set_apart this, set_apart this]
    exact h.bits n

theorem next {a b a' b' : Arm} (h : Frame a b a' b') (hpc : a'.reg 15 = b'.reg 15) (size : Nat) :
    Frame a b (a'.next size) (b'.next size) := h.set (by rw [hpc]) (by decide)

theorem flags {a b a' b' : Arm} (h : Frame a b a' b') (on : Bool) {r r' : Word} (hr : r = r') {c c' v v' : Option Bool}
    (hc : on = true → c = c') (hv : on = true → v = v') : Frame a b (a'.flags on r c v) (b'.flags on r' c' v') := by
  subst hr
  cases on with
  | false => exact h
  | true =>
    obtain rfl := hc rfl
    obtain rfl := hv rfl
    refine ⟨fun j hj => ?_, fun n => ?_⟩
    · rw [flags_apart hj, flags_apart hj]; exact h.regs j hj
    · unfold Arm.flags
      rw [if_pos rfl, if_pos rfl, set16_reg, set16_reg]
      have key : ∀ {x y : Word} {p q : Word} {i : Nat} {t : Bool}, i < 32 →
          (x.getLsbD n = y.getLsbD n ∨ (x.getLsbD n = p.getLsbD n ∧ y.getLsbD n = q.getLsbD n)) →
          ((withBit x i t).getLsbD n = (withBit y i t).getLsbD n ∨
            ((withBit x i t).getLsbD n = p.getLsbD n ∧ (withBit y i t).getLsbD n = q.getLsbD n)) := by
        intro x y p q i t hi hxy
        rw [getLsbD_withBit _ _ hi, getLsbD_withBit _ _ hi]
        by_cases hn : n = i
        · rw [if_pos hn, if_pos hn]; exact .inl rfl
        · rw [if_neg hn, if_neg hn]; exact hxy
      have h2 := key (i := 30) (t := r == 0#32) (by decide) (key (i := 31) (t := r.msb) (by decide) (h.bits n))
      unfold newFlags
      rcases c with _ | c <;> rcases v with _ | v <;> simp only
      · exact h2
      · exact key (by decide) h2
      · exact key (by decide) h2
      · exact key (by decide) (key (by decide) h2)

end Frame

namespace Thumb

/-- The action reads memory. -/
def Act.Loads : Act → Prop
  | .load .. => True
  | .loadLit .. => True
  | .pop _ => True
  | .ldm .. => True
  | _ => False

/-- Words one after the other from an address: address and number of bytes of each. -/
def wordsFrom (x : Word) : Nat → List (Word × Nat)
  | 0 => []
  | n + 1 => (x, 4) :: wordsFrom (x + 4#32) n

/-- What an action reads from memory: address and number of bytes. -/
def Act.loaded (a : Arm) : Act → List (Word × Nat)
  | .load sz _ _ n off => [(a.reg n + off.got a, sz / 8)]
  | .loadLit sz _ add _ imm => [(if add then align4 (a.reg 15 + 4#32) + imm else align4 (a.reg 15 + 4#32) - imm, sz / 8)]
  | .pop r => wordsFrom (a.reg 13) (count r)
  | .ldm n _ r => wordsFrom (a.reg n) (count r)
  | _ => []

/-- Reading these places gives the same in two memories. -/
def SameReads (m m' : List Region) (l : List (Word × Nat)) : Prop := ∀ p ∈ l, peekWord m p.1.toNat p.2 = peekWord m' p.1.toNat p.2

/-- Words one after the other from an address with the registers they come from. -/
def wordsTo (a : Arm) (x : Word) : List Nat → List (Word × Nat × Word)
  | [] => []
  | k :: ks => (x, 4, a.reg k) :: wordsTo a (x + 4#32) ks

/-- What an action writes to memory: address, number of bytes and value. -/
def Act.written (a : Arm) : Act → List (Word × Nat × Word)
  | .store sz t n off => [(a.reg n + off.got a, sz / 8, a.reg t)]
  | .push r => wordsTo (a.set 13 (a.reg 13 - w32 (4 * count r))) (a.reg 13 - w32 (4 * count r)) (low15 r)
  | .stm n _ r => wordsTo a (a.reg n) (low15 r)
  | _ => []

/-- Two states that an action cannot tell apart: they agree on PC, on the registers and
the flags it looks at and on the memory it reads. -/
structure Act.Alike (act : Act) (a b : Arm) : Prop where
  pc : a.reg 15 = b.reg 15
  regs : ∀ k ∈ act.sources, a.reg k = b.reg k
  bits : ∀ n ∈ act.flagsRead, a.flag n = b.flag n
  mem : SameReads a.mem b.mem (act.loaded a)

end Thumb

theorem shift_fst (x : Word) {c c' : Bool} {t : SRType} (h : t = .rrx → c = c') (n : Nat) :
    (C18.armShift x c t n).1 = (C18.armShift x c' t n).1 := by
  cases t with
  | rrx => rw [h rfl]
  | none => rfl
  | _ => unfold C18.armShift; dsimp only; split <;> rfl

theorem shift_snd (x : Word) {c c' : Bool} {t : SRType} {n : Nat} (h : t = .none ∨ n = 0 → c = c') :
    (C18.armShift x c t n).2 = (C18.armShift x c' t n).2 := by
  cases t with
  | rrx => rfl
  | none => exact h (.inl rfl)
  | _ =>
    unfold C18.armShift
    dsimp only
    split
    · exact h (.inr ‹_›)
    · rfl

theorem set_pc {a b : Arm} (h : a.reg 15 = b.reg 15) {k : Int} {v w : Word} (hvw : v = w) :
    (a.set k v).reg 15 = (b.set k w).reg 15 := by
  subst hvw
  unfold Arm.set
  simp only
  split
  · rfl
  · exact h

theorem flags_pc {a b : Arm} (h : a.reg 15 = b.reg 15) (on : Bool) (r r' : Word) (c v c' v' : Option Bool) :
    (a.flags on r c v).reg 15 = (b.flags on r' c' v').reg 15 := by
  rw [flags_apart (by decide), flags_apart (by decide)]; exact h

/-- An action that writes a register and flags. -/
theorem frame_op {a b : Arm} (hpc : a.reg 15 = b.reg 15) (size : Nat) {d : Nat} (hd : (d : Int) ≠ 16) (on : Bool) {r r' : Word}
    (hr : r = r') {c c' v v' : Option Bool} (hc : on = true → c = c') (hv : on = true → v = v') :
    Frame a b (((a.set d r).flags on r c v).next size) (((b.set d r').flags on r' c' v').next size) :=
  (((Frame.refl a b).set hr hd).flags on hr hc hv).next (flags_pc (set_pc hpc hr) _ _ _ _ _ _ _) _

theorem frame_write {a b : Arm} (hpc : a.reg 15 = b.reg 15) (size : Nat) {d : Nat} (hd : (d : Int) ≠ 16) {r r' : Word}
    (hr : r = r') : Frame a b (a.afterWrite size d r) (b.afterWrite size d r') :=
  ((Frame.refl a b).set hr hd).next (set_pc hpc hr) _

theorem frame_regs {a b a' b' c d : Arm} (h : Frame a b a' b') (hc : c.reg = a'.reg) (hd : d.reg = b'.reg) : Frame a b c d :=
  ⟨fun k hk => by rw [hc, hd]; exact h.regs k hk, fun n => by rw [hc, hd]; exact h.bits n⟩

theorem reads_cases {m m' : List Region} {x : Int} {n : Nat} (h : peekWord m x n = peekWord m' x n) :
    (∃ e, peek m x n = .error e ∧ peek m' x n = .error e) ∨
      ∃ v w, peek m x n = .ok v ∧ peek m' x n = .ok w ∧ BitVec.ofNat (8 * n) v = BitVec.ofNat (8 * n) w := by
  unfold peekWord at h
  cases h1 : peek m x n with
  | error e =>
    cases h2 : peek m' x n with
    | error e' => rw [h1, h2] at h; cases h; exact .inl ⟨e, rfl, rfl⟩
    | ok w => rw [h1, h2] at h; cases h
  | ok v =>
    cases h2 : peek m' x n with
    | error e' => rw [h1, h2] at h; cases h
    | ok w =>
      rw [h1, h2] at h
      injection h with h
      rw [bv_eq_ofBV, bv_eq_ofBV, ofBV_inj] at h
      exact .inr ⟨v, w, rfl, rfl, h⟩

theorem loadAll_alike : ∀ {ks : List Nat} {a b a' b' : Arm} (x : Word) {n : Nat}, Frame a b a' b' → a'.reg 15 = b'.reg 15 →
    SameReads a'.mem b'.mem (wordsFrom x (ks.length + n)) →
    (∀ k ∈ ks, k ≠ 16) → (a'.loadAll ks x).1 = (b'.loadAll ks x).1 ∧ Frame a b (a'.loadAll ks x).2 (b'.loadAll ks x).2 ∧
      (a'.loadAll ks x).2.reg 15 = (b'.loadAll ks x).2.reg 15 ∧
      ∀ z, (a'.loadAll ks x).1 = .ok z → SameReads a'.mem b'.mem (wordsFrom z n)
  | [], _, _, _, _, x, n, hf, hp, hm, _ => ⟨rfl, hf, hp, fun z hz => by
      cases hz
      simpa using hm⟩
  | k :: ks, a, b, a', b', x, n, hf, hp, hm, hk => by
    rw [List.length_cons, show ks.length + 1 + n = (ks.length + n) + 1 by omega] at hm
    unfold Arm.loadAll
    rcases reads_cases (hm _ List.mem_cons_self) with ⟨e, h1, h2⟩ | ⟨v, w, h1, h2, h3⟩
    · rw [h1, h2]
      exact ⟨rfl, hf, hp, fun z hz => by cases hz⟩
    · rw [h1, h2]
      have h3 : w32 v = w32 w := h3
      exact loadAll_alike (a' := a'.set k (w32 v)) (b' := b'.set k (w32 w)) _ (hf.set h3 (by have := hk k List.mem_cons_self; omega)) (set_pc hp h3)
        (fun p hq => hm p (List.mem_cons_of_mem _ hq)) fun j hj => hk j (List.mem_cons_of_mem _ hj)

theorem low15_count {r : BitVec 16} (h : r.getLsbD 15 = true) : (low15 r).length + 1 = count r := by
  rw [← listed_length, listed_eq, List.length_append, h]
  rfl

theorem loadRegs_alike {r : BitVec 16} {a b a' b' : Arm} (size : Nat) {x y : Word} (hxy : x = y) (hf : Frame a b a' b')
    (hp : a'.reg 15 = b'.reg 15) (hm : SameReads a'.mem b'.mem (wordsFrom x (count r))) :
    (a'.loadRegs size r x).1 = (b'.loadRegs size r y).1 ∧ Frame a b (a'.loadRegs size r x).2 (b'.loadRegs size r y).2 := by
  subst hxy
  obtain ⟨n, hn⟩ : ∃ n, count r = (low15 r).length + n := ⟨count r - (low15 r).length, by have := low15_le r; omega⟩
  rw [hn] at hm
  have h := loadAll_alike (ks := low15 r) x hf hp hm fun k hk => by have := low15_lt k hk; omega
  have m1 := loadAll_mem (low15 r) x a'
  have m2 := loadAll_mem (low15 r) x b'
  unfold Arm.loadRegs
  generalize a'.loadAll (low15 r) x = p at h m1
  generalize b'.loadAll (low15 r) x = q at h m2
  obtain ⟨p1, p2⟩ := p
  obtain ⟨q1, q2⟩ := q
  obtain ⟨h1, h2, h3, h4⟩ := h
  simp only at h1 h2 h3 h4 m1 m2
  subst h1
  cases p1 with
  | error e => exact ⟨rfl, h2⟩
  | ok z =>
    simp only
    unfold Arm.loadPc
    by_cases h15 : r.getLsbD 15 = true
    · have h4 := h4 z rfl
      rw [show n = 1 by have := low15_count h15; omega] at h4
      rw [if_pos h15, if_pos h15, m1, m2]
      rcases reads_cases (h4 (z, 4) List.mem_cons_self) with ⟨e, e1, e2⟩ | ⟨v, w, e1, e2, e3⟩
      · rw [e1, e2]
        exact ⟨rfl, h2⟩
      · rw [e1, e2]
        exact ⟨rfl, h2.set (show w32 v = w32 w from e3) (by decide)⟩
    · rw [if_neg h15, if_neg h15]
      exact ⟨rfl, h2.next h3 _⟩

theorem loadTo_alike {a b : Arm} (hp : a.reg 15 = b.reg 15) {t : Nat} (ht : (t : Int) ≠ 16) (size sz : Nat) (sgn : Bool)
    (hsz : sz = 8 ∨ sz = 16 ∨ sz = 32)
    {x y : Word} (hxy : x = y) (hm : peekWord a.mem x.toNat (sz / 8) = peekWord b.mem x.toNat (sz / 8)) :
    (a.loadTo size sz sgn t x).1 = (b.loadTo size sz sgn t y).1 ∧ Frame a b (a.loadTo size sz sgn t x).2 (b.loadTo size sz sgn t y).2 := by
  subst hxy
  unfold Arm.loadTo
  rcases reads_cases hm with ⟨e, h1, h2⟩ | ⟨v, w, h1, h2, h3⟩
  · rw [h1, h2]; exact ⟨rfl, Frame.refl _ _⟩
  · rw [h1, h2]
    refine ⟨rfl, frame_write hp _ ht ?_⟩
    rw [show 8 * (sz / 8) = sz by omega] at h3
    unfold extended
    rw [h3]

theorem storeAll_pokes : ∀ (ks : List Nat) (x : Word) (a : Arm), (a.storeAll ks x).mem = pokes a.mem (wordsTo a x ks)
  | [], _, _ => rfl
  | k :: ks, x, a => by
    unfold Arm.storeAll
    rw [storeAll_pokes ks]
    have : ∀ (l : List Nat) (y : Word), wordsTo (a.poke x 4 (a.reg k)) y l = wordsTo a y l := by
      intro l
      induction l with
      | nil => intro y; rfl
      | cons j l ih => intro y; simp only [wordsTo]; rw [ih]; rfl
    rw [this]
    rfl

theorem wordsTo_alike {a b : Arm} : ∀ {ks : List Nat} (x : Word), (∀ k ∈ ks, a.reg k = b.reg k) → wordsTo a x ks = wordsTo b x ks
  | [], _, _ => rfl
  | k :: ks, x, h => by
    simp only [wordsTo]
    rw [h k List.mem_cons_self, wordsTo_alike _ fun j hj => h j (List.mem_cons_of_mem _ hj)]

/-- Memory afterwards. -/
theorem effect_pokes (act : Act) (size : Nat) (a : Arm) : (act.effect size a).2.mem = pokes a.mem (act.written a) := by
  cases act with
  | store sz t n off => rfl
  | push r => exact storeAll_pokes _ _ _
  | stm n wback r =>
    simp only [Act.effect, Arm.stm]
    cases wback <;> exact storeAll_pokes _ _ _
  | _ => refine effect_mem ?_ size a; exact fun h => h

theorem Thumb.Src.alike {src : Src} {a b : Arm} (h : ∀ k ∈ src.regs, a.reg k = b.reg k) : src.got a = src.got b := by
  cases src with
  | reg m => exact h _ List.mem_cons_self
  | imm v => rfl

theorem Thumb.Off.alike {off : Off} {a b : Arm} (h : ∀ k ∈ off.regs, a.reg k = b.reg k)
    (hc : ∀ m sh, off = .reg m sh → sh.1 = .rrx → a.flag 29 = b.flag 29) : off.got a = off.got b := by
  cases off with
  | reg m sh =>
    unfold Off.got
    simp only
    rw [h _ List.mem_cons_self]
    exact shift_fst _ (hc m sh rfl) _
  | imm v => rfl

theorem shiftFlags_rrx {flags : Bool} {sh : SRType × Nat} (h : sh.1 = .rrx) : 29 ∈ shiftFlags flags sh := by
  unfold shiftFlags; rw [if_pos (.inl h)]; exact List.mem_cons_self

theorem shiftFlags_zero {sh : SRType × Nat} (h : sh.1 = .none ∨ sh.2 = 0) : 29 ∈ shiftFlags true sh := by
  unfold shiftFlags; rw [if_pos (.inr ⟨rfl, h⟩)]; exact List.mem_cons_self

theorem holds_alike {a b : Arm} {cond : Nat} (h : ∀ n ∈ condFlags cond, a.flag n = b.flag n) : a.holds cond = b.holds cond := by
  unfold Arm.holds
  by_cases hc : cond < 14
  · have : cond = 0 ∨ cond = 1 ∨ cond = 2 ∨ cond = 3 ∨ cond = 4 ∨ cond = 5 ∨ cond = 6 ∨ cond = 7 ∨ cond = 8 ∨ cond = 9 ∨ cond = 10 ∨
      cond = 11 ∨ cond = 12 ∨ cond = 13 := by omega
    rcases this with rfl | rfl | rfl | rfl | rfl | rfl | rfl | rfl | rfl | rfl | rfl | rfl | rfl | rfl <;>
      simp [condFlags] at h <;> simp [condPassed, h]
  · obtain ⟨c, rfl⟩ : ∃ c, cond = c + 14 := ⟨cond - 14, by omega⟩
    rfl

theorem special_alike {a b : Arm} {s : Nat} (h : ∀ k ∈ specials s, a.reg k = b.reg k)
    (hb : s / 8 = 0 ∧ s % 2 = 1 → ∀ n < 6, a.flag n = b.flag n) : a.special s = b.special s := by
  unfold Arm.special Arm.privileged
  by_cases h0 : s / 8 = 0
  · rw [if_pos h0, if_pos h0]
    split
    · rfl
    · by_cases h2 : s % 2 = 1
      · rw [if_pos h2, if_pos h2]
        congr 1
        apply BitVec.eq_of_getLsbD_eq
        intro n hn
        rw [BitVec.getLsbD_and, BitVec.getLsbD_and]
        by_cases hn6 : n < 6
        · rw [show (a.reg 16).getLsbD n = (b.reg 16).getLsbD n from hb ⟨h0, h2⟩ n hn6]
        · have : (0x3f#32).getLsbD n = false := by
            have : ∀ n : Fin 32, ¬ n.val < 6 → (0x3f#32).getLsbD n = false := by decide
            exact this ⟨n, hn⟩ hn6
          rw [this]; simp
      · rw [if_neg h2, if_neg h2]
  · rw [if_neg h0, if_neg h0]
    unfold specials at h
    by_cases h1 : s / 8 = 1
    · rw [if_pos h1, if_pos h1]
      rw [if_pos h1] at h
      by_cases e0 : s % 8 = 0
      · simp only [e0] at h ⊢; simp at h; simp [h]
      · by_cases e1 : s % 8 = 1
        · simp only [e1] at h ⊢; simp at h; simp [h]
        · simp [e0, e1]
    · rw [if_neg h1, if_neg h1]
      rw [if_neg h1] at h
      by_cases h2 : s / 8 = 2
      · rw [if_pos h2, if_pos h2]
        rw [if_pos h2] at h
        have : s % 8 = 0 ∨ s % 8 = 1 ∨ s % 8 = 2 ∨ s % 8 = 3 ∨ s % 8 = 4 ∨ s % 8 = 5 ∨ s % 8 = 6 ∨ s % 8 = 7 := by omega
        rcases this with e | e | e | e | e | e | e | e <;> simp only [e] at h ⊢ <;> simp at h ⊢ <;> simp [h]
      · rw [if_neg h2, if_neg h2]

/-- Two states that an action cannot tell apart: it ends alike in both, changes registers
and flags alike and writes the same to memory. -/
theorem effect_alike {act : Act} (hv : act.Valid) (ht : ∀ k ∈ act.targets, k ≠ 16) {a b : Arm} (h : act.Alike a b) (size : Nat) :
    (act.effect size a).1 = (act.effect size b).1 ∧ Frame a b (act.effect size a).2 (act.effect size b).2 ∧
      act.written a = act.written b := by
  obtain ⟨hpc, hr, hb, hm⟩ := h
  cases act with
  | addSub sub carry flags d n src =>
    have h1 := hr _ List.mem_cons_self
    have h2 : src.got a = src.got b := Src.alike fun k hk => hr k (List.mem_cons_of_mem _ hk)
    have h3 : (if carry then a.flag 29 else sub) = (if carry then b.flag 29 else sub) := by
      cases carry with
      | false => rfl
      | true => exact hb _ List.mem_cons_self
    simp only [Act.effect, h1, h2, h3]
    exact ⟨by first | rfl | trivial, frame_op hpc _ (ht _ List.mem_cons_self) _ rfl (fun _ => rfl) (fun _ => rfl), rfl⟩
  | rsb flags d n imm =>
    have h1 := hr _ List.mem_cons_self
    simp only [Act.effect, h1]
    exact ⟨by first | rfl | trivial, frame_op hpc _ (ht _ List.mem_cons_self) _ rfl (fun _ => rfl) (fun _ => rfl), rfl⟩
  | logic f flags d n m =>
    have h1 := hr _ List.mem_cons_self
    have h2 := hr _ (List.mem_cons_of_mem _ List.mem_cons_self)
    simp only [Act.effect, h1, h2]
    exact ⟨by first | rfl | trivial, frame_op hpc _ (ht _ List.mem_cons_self) _ rfl (fun _ => rfl) (fun _ => rfl), rfl⟩
  | bic flags d n m =>
    have h1 := hr _ List.mem_cons_self
    have h2 := hr _ (List.mem_cons_of_mem _ List.mem_cons_self)
    simp only [Act.effect, h1, h2]
    exact ⟨by first | rfl | trivial, frame_op hpc _ (ht _ List.mem_cons_self) _ rfl (fun _ => rfl) (fun _ => rfl), rfl⟩
  | shiftImm t flags d m k =>
    have h1 := hr _ List.mem_cons_self
    simp only [Act.effect, h1]
    refine ⟨by first | rfl | trivial, frame_op hpc _ (ht _ List.mem_cons_self) _ (shift_fst _ (fun e => hb _ (shiftFlags_rrx e)) _) (fun e => ?_) (fun _ => rfl), rfl⟩
    subst e
    rw [shift_snd _ fun e => hb _ (shiftFlags_zero e)]
  | shiftReg t flags d n m =>
    have h1 := hr _ List.mem_cons_self
    have h2 := hr _ (List.mem_cons_of_mem _ List.mem_cons_self)
    simp only [Act.effect, h1, h2]
    refine ⟨by first | rfl | trivial, frame_op hpc _ (ht _ List.mem_cons_self) _ (shift_fst _ (fun e => absurd e hv) _) (fun e => ?_) (fun _ => rfl), rfl⟩
    subst e
    rw [hb 29 List.mem_cons_self]
  | mul flags d n m =>
    have h1 := hr _ List.mem_cons_self
    have h2 := hr _ (List.mem_cons_of_mem _ List.mem_cons_self)
    simp only [Act.effect, h1, h2]
    exact ⟨by first | rfl | trivial, frame_op hpc _ (ht _ List.mem_cons_self) _ rfl (fun _ => rfl) (fun _ => rfl), rfl⟩
  | adr add d imm =>
    simp only [Act.effect, hpc]
    exact ⟨by first | rfl | trivial, frame_write hpc _ (ht _ List.mem_cons_self) rfl, rfl⟩
  | extend sgn width rotation d m =>
    simp only [Act.effect, hr _ List.mem_cons_self]
    exact ⟨by first | rfl | trivial, frame_write hpc _ (ht _ List.mem_cons_self) rfl, rfl⟩
  | rev kind d m =>
    simp only [Act.effect, hr _ List.mem_cons_self]
    exact ⟨by first | rfl | trivial, frame_write hpc _ (ht _ List.mem_cons_self) rfl, rfl⟩
  | mov neg flags d src c =>
    have h2 : src.got a = src.got b := Src.alike fun k hk => hr k hk
    simp only [Act.effect, h2]
    exact ⟨by first | rfl | trivial, frame_op hpc _ (ht _ List.mem_cons_self) _ rfl (fun _ => rfl) (fun _ => rfl), rfl⟩
  | mvnShift flags d m sh => exact ⟨by first | rfl | trivial, Frame.refl _ _, rfl⟩
  | cmp sub n src =>
    have h1 := hr _ List.mem_cons_self
    have h2 : src.got a = src.got b := Src.alike fun k hk => hr k (List.mem_cons_of_mem _ hk)
    simp only [Act.effect, h1, h2]
    exact ⟨by first | rfl | trivial, ((Frame.refl a b).flags _ rfl (fun _ => rfl) (fun _ => rfl)).next (flags_pc hpc _ _ _ _ _ _ _) _, rfl⟩
  | tst n m sh =>
    have h1 := hr _ List.mem_cons_self
    have h2 := hr _ (List.mem_cons_of_mem _ List.mem_cons_self)
    simp only [Act.effect, h1, h2]
    refine ⟨by first | rfl | trivial, ((Frame.refl a b).flags _ ?_ (fun _ => ?_) (fun _ => rfl)).next (flags_pc hpc _ _ _ _ _ _ _) _, rfl⟩
    · rw [shift_fst _ (fun e => hb _ (shiftFlags_rrx e)) _]
    · rw [shift_snd _ fun e => hb _ (shiftFlags_zero e)]
  | branch cond offset =>
    simp only [Act.effect, holds_alike hb]
    split
    · exact ⟨by first | rfl | trivial, (Frame.refl a b).set (by rw [hpc]) (by decide), rfl⟩
    · exact ⟨by first | rfl | trivial, (Frame.refl a b).next hpc _, rfl⟩
  | bl offset =>
    simp only [Act.effect, hpc]
    exact ⟨by first | rfl | trivial, ((Frame.refl a b).set rfl (by decide)).set rfl (by decide), rfl⟩
  | blx m =>
    have h1 := hr _ List.mem_cons_self
    simp only [Act.effect, hpc]
    refine ⟨by first | rfl | trivial, ((Frame.refl a b).set rfl (by decide)).set ?_ (by decide), rfl⟩
    unfold Arm.set
    simp only
    split
    · rfl
    · rw [h1]
  | bx m =>
    simp only [Act.effect, hr _ List.mem_cons_self]
    exact ⟨by first | rfl | trivial, (Frame.refl a b).set rfl (by decide), rfl⟩
  | load sz sgn t n off =>
    have h1 := hr _ List.mem_cons_self
    have h2 : off.got a = off.got b := Off.alike (fun k hk => hr k (List.mem_cons_of_mem _ hk)) fun m sh e he => by
      subst e; exact hb _ (shiftFlags_rrx he)
    have := loadTo_alike hpc (ht _ List.mem_cons_self) size sz sgn hv.1 (show a.reg n + off.got a = b.reg n + off.got b by rw [h1, h2])
      (hm _ List.mem_cons_self)
    exact ⟨this.1, this.2, rfl⟩
  | store sz t n off =>
    have h0 := hr _ List.mem_cons_self
    have h1 := hr _ (List.mem_cons_of_mem _ List.mem_cons_self)
    have h2 : off.got a = off.got b := Off.alike (fun k hk => hr k (List.mem_cons_of_mem _ (List.mem_cons_of_mem _ hk))) fun m sh e he => by
      subst e; exact hb _ (shiftFlags_rrx he)
    simp only [Act.effect, h0, h1, h2]
    refine ⟨by first | rfl | trivial, Frame.next (a' := a.poke _ _ _) (b' := b.poke _ _ _) (frame_regs (Frame.refl a b) rfl rfl) hpc _, ?_⟩
    simp only [Act.written, h0, h1, h2]
  | loadLit sz sgn add t imm =>
    have := loadTo_alike hpc (ht _ List.mem_cons_self) size sz sgn hv
      (show (if add then align4 (a.reg 15 + 4#32) + imm else align4 (a.reg 15 + 4#32) - imm) = 
        (if add then align4 (b.reg 15 + 4#32) + imm else align4 (b.reg 15 + 4#32) - imm) by rw [hpc])
      (hm _ List.mem_cons_self)
    exact ⟨this.1, this.2, rfl⟩
  | push r =>
    have h1 : a.reg 13 = b.reg 13 := hr _ List.mem_cons_self
    simp only [Act.effect, h1]
    refine ⟨by first | rfl | trivial, Frame.next (frame_regs ((Frame.refl a b).set (k := 13) rfl (by decide)) (storeAll_reg _ _ _) (storeAll_reg _ _ _)) ?_ _,
      ?_⟩
    · rw [storeAll_reg, storeAll_reg]; exact set_pc hpc rfl
    simp only [Act.written, h1]
    refine wordsTo_alike _ fun k hk => ?_
    · have := hr _ (List.mem_cons_of_mem _ (List.mem_map.2 ⟨k, hk, rfl⟩))
      unfold Arm.set
      simp only
      split
      · rfl
      · exact this
  | pop r =>
    have h1 : a.reg 13 = b.reg 13 := hr _ List.mem_cons_self
    have := loadRegs_alike (r := r) size (rfl : b.reg 13 = b.reg 13)
      ((Frame.refl a b).set (k := 13) (v := b.reg 13 + w32 (4 * count r)) rfl (by decide)) (set_pc hpc rfl) (h1 ▸ hm)
    simp only [Act.effect, h1]
    exact ⟨this.1, this.2, rfl⟩
  | ldm n wback r =>
    have h1 := hr _ List.mem_cons_self
    have h := loadRegs_alike (r := r) size h1 (Frame.refl a b) hpc hm
    simp only [Act.effect, Arm.ldm]
    generalize a.loadRegs size r (a.reg n) = p at h
    generalize b.loadRegs size r (b.reg n) = q at h
    obtain ⟨p1, p2⟩ := p
    obtain ⟨q1, q2⟩ := q
    obtain ⟨e1, e2⟩ := h
    simp only at e1 e2
    subst e1
    cases p1 with
    | error e => exact ⟨by first | rfl | trivial, e2, rfl⟩
    | ok u =>
      simp only
      unfold Arm.writeBack
      by_cases hw : (wback && !r.getLsbD n) = true
      · rw [if_pos hw, if_pos hw]
        have hwb : wback = true := by simp at hw; exact hw.1
        subst hwb
        have hn : (n : Int) ≠ 16 := ht _ (List.mem_append_left _ List.mem_cons_self)
        have : p2.reg n = q2.reg n := by
          rcases e2.regs n hn with h | ⟨h, h'⟩
          · exact h
          · rw [h, h', h1]
        rw [this]
        exact ⟨by first | rfl | trivial, e2.set rfl hn, rfl⟩
      · rw [if_neg hw, if_neg hw]
        exact ⟨by first | rfl | trivial, e2, rfl⟩
  | stm n wback r =>
    have h1 := hr _ List.mem_cons_self
    have hk : ∀ k ∈ low15 r, a.reg k = b.reg k := fun k hk => hr _ (List.mem_cons_of_mem _ (List.mem_map.2 ⟨k, hk, rfl⟩))
    have hf : Frame a b (a.storeAll (low15 r) (b.reg n)) (b.storeAll (low15 r) (b.reg n)) :=
      frame_regs (Frame.refl a b) (storeAll_reg _ _ _) (storeAll_reg _ _ _)
    have hp : (a.storeAll (low15 r) (b.reg n)).reg 15 = (b.storeAll (low15 r) (b.reg n)).reg 15 := by rw [storeAll_reg, storeAll_reg, hpc]
    simp only [Act.effect, Arm.stm, h1]
    cases wback with
    | false => exact ⟨by first | rfl | trivial, hf.next hp _, by simp only [Act.written, h1]; exact wordsTo_alike _ hk⟩
    | true => exact ⟨by first | rfl | trivial, (hf.set rfl (ht _ List.mem_cons_self)).next (set_pc hp rfl) _, by simp only [Act.written, h1]; exact wordsTo_alike _ hk⟩
  | cps enable pri fault =>
    simp only [Act.effect, Arm.cps]
    cases pri <;> cases fault
    · exact ⟨by first | rfl | trivial, (Frame.refl a b).next hpc _, rfl⟩
    · exact ⟨by first | rfl | trivial, ((Frame.refl a b).set rfl (by decide)).next (set_pc hpc rfl) _, rfl⟩
    · exact ⟨by first | rfl | trivial, ((Frame.refl a b).set rfl (by decide)).next (set_pc hpc rfl) _, rfl⟩
    · exact ⟨by first | rfl | trivial, (((Frame.refl a b).set rfl (by decide)).set rfl (by decide)).next (set_pc (set_pc hpc rfl) rfl) _, rfl⟩
  | mrs d sysm =>
    simp only [Act.effect, Arm.mrs]
    rw [special_alike hr fun e n hn => hb n (by
      show n ∈ (if _ then _ else _)
      rw [if_pos e]; exact List.mem_range.2 hn)]
    cases b.special sysm.toNat with
    | ok v => exact ⟨by first | rfl | trivial, frame_write hpc _ (ht _ List.mem_cons_self) rfl, rfl⟩
    | error e => exact ⟨by first | rfl | trivial, Frame.refl _ _, rfl⟩
  | msr n mask sysm => exact ⟨by first | rfl | trivial, (Frame.refl a b).next hpc _, rfl⟩
  | plain => exact ⟨by first | rfl | trivial, (Frame.refl a b).next hpc _, rfl⟩

/-- An action reads the same places in two states with the same PC, operands and flags. -/
theorem loaded_alike {act : Act} {a b : Arm} (hpc : a.reg 15 = b.reg 15) (hr : ∀ k ∈ act.sources, a.reg k = b.reg k)
    (hb : ∀ n ∈ act.flagsRead, a.flag n = b.flag n) : act.loaded a = act.loaded b := by
  cases act with
  | load sz sgn t n off =>
    have h1 := hr _ List.mem_cons_self
    have h2 : off.got a = off.got b := Off.alike (fun k hk => hr k (List.mem_cons_of_mem _ hk)) fun m sh e he => by
      subst e; exact hb _ (shiftFlags_rrx he)
    simp only [Act.loaded, h1, h2]
  | loadLit sz sgn add t imm => simp only [Act.loaded, hpc]
  | pop r => simp only [Act.loaded]; rw [hr 13 List.mem_cons_self]
  | ldm n wback r => simp only [Act.loaded]; rw [hr n List.mem_cons_self]
  | _ => rfl

/-- An action writes the same to memory in two states with the same operands and flags. -/
theorem written_alike {act : Act} {a b : Arm} (hr : ∀ k ∈ act.sources, a.reg k = b.reg k)
    (hb : ∀ n ∈ act.flagsRead, a.flag n = b.flag n) : act.written a = act.written b := by
  cases act with
  | store sz t n off =>
    have h0 := hr _ List.mem_cons_self
    have h1 := hr _ (List.mem_cons_of_mem _ List.mem_cons_self)
    have h2 : off.got a = off.got b := Off.alike (fun k hk => hr k (List.mem_cons_of_mem _ (List.mem_cons_of_mem _ hk))) fun m sh e he => by
      subst e; exact hb _ (shiftFlags_rrx he)
    simp only [Act.written, h0, h1, h2]
  | push r =>
    have h1 : a.reg 13 = b.reg 13 := hr _ List.mem_cons_self
    simp only [Act.written, h1]
    refine wordsTo_alike _ fun k hk => ?_
    have := hr _ (List.mem_cons_of_mem _ (List.mem_map.2 ⟨k, hk, rfl⟩))
    unfold Arm.set
    simp only
    split
    · rfl
    · exact this
  | stm n wback r =>
    have h1 := hr _ List.mem_cons_self
    simp only [Act.written, h1]
    exact wordsTo_alike _ fun k hk => hr _ (List.mem_cons_of_mem _ (List.mem_map.2 ⟨k, hk, rfl⟩))
  | _ => rfl

theorem wordsFrom_size : ∀ (n : Nat) (x : Word), ∀ p ∈ wordsFrom x n, p.2 = 4
  | 0, _, _, h => by cases h
  | n + 1, x, p, h => by
    rcases List.mem_cons.1 h with rfl | h
    · rfl
    · exact wordsFrom_size n _ p h

/-- Bytes, halfwords and words are read. -/
theorem loaded_size {act : Act} (hv : act.Valid) (a : Arm) : ∀ p ∈ act.loaded a, p.2 = 1 ∨ p.2 = 2 ∨ p.2 = 4 := by
  intro p hp
  cases act with
  | load sz sgn t n off =>
    obtain rfl := List.mem_singleton.1 hp
    have := hv.1
    unfold SizeOK at this
    simp only
    omega
  | loadLit sz sgn add t imm =>
    obtain rfl := List.mem_singleton.1 hp
    have : SizeOK sz := hv
    unfold SizeOK at this
    simp only
    omega
  | pop r => exact .inr (.inr (wordsFrom_size _ _ p hp))
  | ldm n wback r => exact .inr (.inr (wordsFrom_size _ _ p hp))
  | _ => cases hp

/-- The object left is the same. -/
theorem leaves_alike {act : Act} {a b : Arm} (h : act.Alike a b) (i : Instr) : act.leaves a i = act.leaves b i := by
  cases act with
  | addSub sub carry flags d n src =>
    unfold Act.leaves
    simp only [Src.alike fun k hk => h.regs k (List.mem_cons_of_mem _ hk)]
  | cmp sub n src =>
    unfold Act.leaves
    simp only [Src.alike fun k hk => h.regs k (List.mem_cons_of_mem _ hk)]
  | _ => rfl

/-- The registers an object of an action looks at are core registers. -/
theorem sources_of {act : Act} {i : Instr} (h : act.Of i) : ∀ k ∈ act.sources, -4 ≤ k ∧ k < 19 ∧ k ≠ 16 := by
  have hl : ∀ (r : BitVec 16), ∀ k ∈ (low15 r).map Int.ofNat, -4 ≤ k ∧ k < 19 ∧ k ≠ 16 := by
    intro r k hk
    obtain ⟨j, hj, rfl⟩ := List.mem_map.1 hk
    have := low15_lt j hj
    simp only [Int.ofNat_eq_natCast]
    omega
  have hn : ∀ k ∈ ([] : List Int), -4 ≤ k ∧ k < 19 ∧ k ≠ 16 := by simp
  have hc : ∀ {o : Option Nat} {d : Nat} {l : List Int}, IsReg o d → (∀ k ∈ l, -4 ≤ k ∧ k < 19 ∧ k ≠ 16) →
      ∀ k ∈ (d : Int) :: l, -4 ≤ k ∧ k < 19 ∧ k ≠ 16 := by
    intro o d l hd hl k hk
    have := hd.2
    rcases List.mem_cons.1 hk with rfl | hk
    · omega
    · exact hl k hk
  have hs : ∀ {src : Src}, src.Of i → ∀ k ∈ src.regs, -4 ≤ k ∧ k < 19 ∧ k ≠ 16 := by
    intro src hs
    cases src with
    | reg m => exact hc hs.2 hn
    | imm v => exact hn
  have ho : ∀ {off : Off}, off.Of i → ∀ k ∈ off.regs, -4 ≤ k ∧ k < 19 ∧ k ≠ 16 := by
    intro off hs
    cases off with
    | reg m sh => exact hc ⟨hs.2.1, hs.2.2.1⟩ hn
    | imm v => exact hn
  cases act with
  | addSub => exact hc h.2.2.2.2.2.1 (hs h.2.2.2.2.2.2)
  | rsb => exact hc h.2.2.2.1 hn
  | logic => exact hc h.2.2.2.2.1 (hc h.2.2.2.2.2 hn)
  | bic => exact hc h.2.2.2.1 (hc h.2.2.2.2 hn)
  | shiftImm => exact hc h.2.2.2.2.2 hn
  | shiftReg => exact hc h.2.2.2.2.2.1 (hc h.2.2.2.2.2.2 hn)
  | mul => exact hc h.2.2.2.1 (hc h.2.2.2.2 hn)
  | extend => exact hc h.2.2.2.2.2 hn
  | rev => exact hc h.2.2.2.2 hn
  | mov => exact hs h.2.2.2.2
  | cmp => exact hc h.2.2.1 (hs h.2.2.2)
  | tst => exact hc h.2.1 (hc h.2.2.1 hn)
  | blx => exact hc h.2.2.2.2 hn
  | bx => exact hc h.2.2.2.2 hn
  | load => exact hc h.2.2.2.2.1 (ho h.2.2.2.2.2.2.2.2)
  | store => exact hc h.2.2.1 (hc h.2.2.2.1 (ho h.2.2.2.2.2.2))
  | push r =>
    intro k hk
    rcases List.mem_cons.1 hk with rfl | hk
    · omega
    · exact hl r k hk
  | pop r => intro k hk; simp only [Act.sources, List.mem_singleton] at hk; omega
  | ldm n wback r => exact hc h.2.1 hn
  | stm n wback r => exact hc h.2.1 (hl r)
  | mrs d sysm =>
    have hd : ∀ n : Nat, ∀ k ∈ specials n, k ∈ [(-4 : Int), -3, -2, -1, 17, 18] := by
      intro n k hk
      unfold specials at hk
      repeat' split at hk
      all_goals simp at hk ⊢
      all_goals omega
    intro k hk
    have := hd _ k hk
    simp at this
    omega
  | _ => exact hn

end Verif
