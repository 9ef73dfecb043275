import Verif.Props.C59to62
import Verif.Lemmas.Sample
import Verif.Program

/-!
# C105: loads and stores are made of others
-/

namespace Verif
open BS CpuM Thumb

namespace C105

/-! ### Executing the objects of actions -/

/-- These are objects of these actions. -/
def Objects : List Act → List Instr → Prop
  | [], [] => True
  | act :: acts, i :: is => act.Of i ∧ act.Valid ∧ Objects acts is
  | _, _ => False

theorem one {act : Act} {i : Instr} (h : act.Of i) (hv : act.Valid) : Objects [act] [i] := ⟨h, hv, trivial⟩

theorem two {act act' : Act} {i j : Instr} (h : act.Of i) (hv : act.Valid) (h' : act'.Of j) (hv' : act'.Valid) :
    Objects [act, act'] [i, j] := ⟨h, hv, h', hv', trivial⟩

/-- Their effects one after the other. -/
def effects : List Act → List Instr → Arm → PyRes Unit × Arm
  | act :: acts, i :: is, a => match act.effect i.size a with
    | (.ok (), b) => effects acts is b
    | (.error e, b) => (.error e, b)
  | _, _, a => (.ok (), a)

theorem run_all : ∀ {acts : List Act} {is : List Instr}, Objects acts is → ∀ a : Arm,
    executeAll is a.conc = ((effects acts is a).1, (effects acts is a).2.conc)
  | [], [], _, _ => rfl
  | [], _ :: _, h, _ => h.elim
  | _ :: _, [], h, _ => h.elim
  | act :: acts, i :: is, h, a => by
    obtain ⟨h1, h2, h3⟩ := h
    have he := eval_exact h1 h2 a
    unfold executeAll effects
    cases hx : act.effect i.size a with
    | mk r b =>
      rw [hx] at he
      cases r with
      | error e => rw [bind_err (show _ = (Except.error e, b.conc) from he)]
      | ok u =>
        cases u
        rw [bind_ok (show _ = (Except.ok _, b.conc) from he)]
        exact run_all h3 b

/-- Two executions end alike: with the same exception or none, the same memory, and the same registers except PC. -/
def SameEnd (x y : PyRes Unit × Machine) : Prop :=
  x.1 = y.1 ∧ x.2.mem = y.2.mem ∧ ∀ k, k ≠ some 15 → x.2.regs k = y.2.regs k

/-- The same but for PC. -/
structure Near (a b : Arm) : Prop where
  mem : a.mem = b.mem
  extra : a.extra = b.extra
  reg : ∀ k, k ≠ 15 → a.reg k = b.reg k

theorem Near.rfl' (a : Arm) : Near a a := ⟨rfl, rfl, fun _ _ => rfl⟩

theorem Near.symm {a b : Arm} (h : Near a b) : Near b a := ⟨h.mem.symm, h.extra.symm, fun k hk => (h.reg k hk).symm⟩

theorem Near.trans {a b c : Arm} (h : Near a b) (h' : Near b c) : Near a c :=
  ⟨h.mem.trans h'.mem, h.extra.trans h'.extra, fun k hk => (h.reg k hk).trans (h'.reg k hk)⟩

theorem near_next (a : Arm) (n : Nat) : Near (a.next n) a :=
  ⟨rfl, rfl, fun k hk => by rw [Arm.next, reg_set_ne a _ hk (by omega) (by omega)]⟩

theorem Near.next {a b : Arm} (h : Near a b) (m n : Nat) : Near (a.next m) (b.next n) :=
  ((near_next a m).trans h).trans (near_next b n).symm

theorem Near.set {a b : Arm} (h : Near a b) (k : Int) (v : Word) : Near (a.set k v) (b.set k v) := by
  refine ⟨h.mem, h.extra, fun j hj => ?_⟩
  rw [reg_set, reg_set]
  split
  · rfl
  · exact h.reg j hj

theorem Near.poke {a b : Arm} (h : Near a b) (x : Word) (n : Nat) (v : Word) : Near (a.poke x n v) (b.poke x n v) := by
  refine ⟨?_, h.extra, h.reg⟩
  unfold Arm.poke
  rw [h.mem]

theorem Near.same {a b : Arm} (h : Near a b) (r : PyRes Unit) : SameEnd (r, a.conc) (r, b.conc) := by
  refine ⟨rfl, h.mem, fun k hk => ?_⟩
  cases k with
  | none => exact congrFun h.extra none
  | some k =>
    have : k ≠ 15 := fun e => hk (by rw [e])
    simp only [Arm.conc, h.reg k this, h.extra]

/-- Results that are the same but for PC. -/
def NearEnd (x y : PyRes Unit × Arm) : Prop := x.1 = y.1 ∧ Near x.2 y.2

theorem same_end {acts acts' : List Act} {is js : List Instr} (hi : Objects acts is) (hj : Objects acts' js) {s : Machine} (hs : Regs32 s)
    (h : ∀ a, s = a.conc → NearEnd (effects acts is a) (effects acts' js a)) : SameEnd (executeAll is s) (executeAll js s) := by
  obtain ⟨a, rfl⟩ := hs.arm
  obtain ⟨h1, h2⟩ := h a rfl
  rw [run_all hi, run_all hj, h1]
  exact h2.same _

/-! ### Several registers -/

/-- LDR of these registers from consecutive words. -/
def loads (n : Nat) : List Nat → Word → List Act
  | [], _ => []
  | t :: ts, o => .load 32 false t n (.imm o) :: loads n ts (o + 4#32)

/-- STR of these registers at consecutive words. -/
def stores (n : Nat) : List Nat → Word → List Act
  | [], _ => []
  | t :: ts, o => .store 32 t n (.imm o) :: stores n ts (o + 4#32)

theorem extended_word (v : Nat) : extended false 32 v = w32 v := by
  unfold extended w32
  simp

theorem loads_near {n : Nat} (hn : n < 15) : ∀ (ts : List Nat) (o : Word) {js : List Instr}, Objects (loads n ts o) js → n ∉ ts → (∀ t ∈ ts, t < 15) →
    ∀ {a b : Arm}, Near a b → ∀ {x : Word}, x = b.reg n + o →
    (a.loadAll ts x).1.map (fun _ => ()) = (effects (loads n ts o) js b).1 ∧ Near (a.loadAll ts x).2 (effects (loads n ts o) js b).2
  | [], _, [], _, _, _, _, _, hab, _, _ => ⟨rfl, hab⟩
  | [], _, _ :: _, h, _, _, _, _, _, _, _ => h.elim
  | _ :: _, _, [], h, _, _, _, _, _, _, _ => h.elim
  | t :: ts, o, j :: js, h, hm, hl, a, b, hab, x, hx => by
    obtain ⟨-, -, h3⟩ := h
    unfold Arm.loadAll loads effects
    simp only [Act.effect, Arm.loadTo, Off.got, ← hx, ← hab.mem, show 32 / 8 = 4 from rfl]
    cases hp : peek a.mem x.toNat 4 with
    | error e => exact ⟨rfl, hab⟩
    | ok v =>
      simp only [extended_word]
      refine loads_near hn ts (o + 4#32) h3 (fun q => hm (List.mem_cons_of_mem _ q))
        (fun k hk => hl k (List.mem_cons_of_mem _ hk)) ?_ ?_
      · exact ((hab.set t _).trans (near_next _ _).symm)
      · have ht : n ≠ t := fun q => hm (q ▸ List.mem_cons_self)
        have := hl t List.mem_cons_self
        rw [hx, Arm.afterWrite, Arm.next, reg_set_ne _ _ (by omega) (by omega) (by omega), reg_set_ne b _ (show (n : Int) ≠ t by omega)
          (by omega) (by omega), BitVec.add_assoc]

theorem stores_near {n : Nat} (hn : n < 15) : ∀ (ts : List Nat) (o : Word) {js : List Instr}, Objects (stores n ts o) js → (∀ t ∈ ts, t < 15) →
    ∀ {a b : Arm}, Near a b → ∀ {x : Word}, x = b.reg n + o →
    (effects (stores n ts o) js b).1 = .ok () ∧ Near (a.storeAll ts x) (effects (stores n ts o) js b).2
  | [], _, [], _, _, _, _, hab, _, _ => ⟨rfl, hab⟩
  | [], _, _ :: _, h, _, _, _, _, _, _ => h.elim
  | _ :: _, _, [], h, _, _, _, _, _, _ => h.elim
  | t :: ts, o, j :: js, h, hm, a, b, hab, x, hx => by
    obtain ⟨-, -, h3⟩ := h
    unfold Arm.storeAll stores effects
    simp only [Act.effect, Off.got, ← hx, show 32 / 8 = 4 from rfl]
    have ht := hm t List.mem_cons_self
    rw [hab.reg t (by omega)]
    refine stores_near hn ts (o + 4#32) h3 (fun k hk => hm k (List.mem_cons_of_mem _ hk)) ?_ ?_
    · exact (hab.poke ..).trans (near_next _ _).symm
    · rw [hx, Arm.next, reg_set_ne _ _ (by omega) (by omega) (by omega), BitVec.add_assoc]
      rfl

theorem low15_lt (r : BitVec 16) : ∀ t ∈ low15 r, t < 15 := fun _ ht => List.mem_range.1 (List.mem_filter.1 ht).1

theorem low15_mem {r : BitVec 16} {n : Nat} (h : n ∈ low15 r) : r.getLsbD n = true := (List.mem_filter.1 h).2

theorem effects_one {act : Act} {i : Instr} (a : Arm) : effects [act] [i] a = act.effect i.size a := by
  unfold effects
  cases act.effect i.size a with
  | mk r b =>
    cases r with
    | error e => rfl
    | ok u => rfl

/-- **C105.** LDM without write-back, of any list without PC and without the base register, ends as LDR of the
registers one by one does, wherever the words are. -/
theorem load_multiple {n : Nat} (hn : n < 15) {r : BitVec 16} (hp : r.getLsbD 15 = false) (hb : r.getLsbD n = false) {i : Instr}
    (hi : (Act.ldm n false r).Of i) {js : List Instr} (hj : Objects (loads n (low15 r) 0#32) js) {s : Machine} (hs : Regs32 s) :
    SameEnd (executeAll [i] s) (executeAll js s) := by
  refine same_end (one hi trivial) hj hs fun a _ => ?_
  have hm : n ∉ low15 r := fun h => by rw [low15_mem h] at hb; cases hb
  have := loads_near hn (low15 r) 0#32 hj hm (low15_lt r) (Near.rfl' a) (x := a.reg n) (by simp)
  rw [effects_one]
  simp only [Act.effect, Arm.ldm, Arm.loadRegs]
  cases hl : a.loadAll (low15 r) (a.reg n) with
  | mk e b =>
    rw [hl] at this
    cases e with
    | error e => exact this
    | ok y =>
      simp only [Arm.loadPc, hp, Bool.false_eq_true, if_false, Arm.writeBack, Bool.false_and]
      exact ⟨this.1, (near_next b _).trans this.2⟩

/-- **C105.** STM without write-back ends as STR of the registers one by one does. -/
theorem store_multiple {n : Nat} (hn : n < 15) {r : BitVec 16} {i : Instr} (hi : (Act.stm n false r).Of i) {js : List Instr}
    (hj : Objects (stores n (low15 r) 0#32) js) {s : Machine} (hs : Regs32 s) : SameEnd (executeAll [i] s) (executeAll js s) := by
  refine same_end (one hi trivial) hj hs fun a _ => ?_
  have := stores_near hn (low15 r) 0#32 hj (low15_lt r) (Near.rfl' a) (x := a.reg n) (by simp)
  rw [effects_one]
  exact ⟨this.1.symm, (near_next _ _).trans this.2⟩

/-! ### One register -/

/-- **C105.** LDRSB and LDRSH end as LDRB and SXTB, LDRH and SXTH do. -/
theorem load_signed {sz t n : Nat} {off : Off} (hz : sz = 8 ∨ sz = 16) (ho : off.Valid) (ht : t < 13) {i j k : Instr}
    (hi : (Act.load sz true t n off).Of i) (hj : (Act.load sz false t n off).Of j) (hk : (Act.extend true sz 0 t t).Of k) {s : Machine}
    (hs : Regs32 s) : SameEnd (executeAll [i] s) (executeAll [j, k] s) := by
  have hv : SizeOK sz := by rcases hz with h | h <;> simp [SizeOK, h]
  refine same_end (one hi ⟨hv, ho⟩) (two hj ⟨hv, ho⟩ hk ⟨hz, by decide⟩) hs fun a _ => ?_
  rw [effects_one]
  unfold effects
  simp only [effects_one, Act.effect, Arm.loadTo]
  cases hp : peek a.mem (a.reg n + off.got a).toNat (sz / 8) with
  | error e => exact ⟨rfl, Near.rfl' a⟩
  | ok v =>
    refine ⟨rfl, ?_⟩
    have e : ((a.afterWrite j.size t (extended false sz v)).reg t).rotateRight 0 = extended false sz v := by
      rw [Arm.afterWrite, Arm.next, reg_set_ne _ _ (by omega) (by omega) (by omega), reg_set, if_pos (.inl rfl),
        keepBits_plain (by omega) (by omega), BitVec.rotateRight_def]
      simp
    have e2 : extended true sz (extended false sz v).toNat = extended true sz v := by
      unfold extended
      rcases hz with rfl | rfl <;> (simp only [if_true]; congr 1; apply BitVec.eq_of_toNat_eq; simp)
    simp only [e, e2]
    refine ((near_next _ _).trans ?_).trans (near_next _ _).symm
    refine ⟨rfl, rfl, fun q hq => ?_⟩
    rw [reg_set, reg_set]
    split
    · rfl
    · rename_i h
      rw [Arm.afterWrite, Arm.next, reg_set_ne _ _ hq (by omega) (by omega), reg_set, if_neg h]

/-- **C105.** A load from a literal ends as ADR and a load from the register does, if it ends normally. -/
theorem load_literal {sz t : Nat} {sgn add : Bool} {imm : Word} (hz : SizeOK sz) (ht : t < 13) {i j k : Instr}
    (hi : (Act.loadLit sz sgn add t imm).Of i) (hj : (Act.adr add t imm).Of j) (hk : (Act.load sz sgn t t (.imm 0#32)).Of k) {s : Machine}
    (hs : Regs32 s) (h : (executeAll [i] s).1 = .ok ()) : SameEnd (executeAll [i] s) (executeAll [j, k] s) := by
  have hi' : Objects [.loadLit sz sgn add t imm] [i] := one hi hz
  refine same_end hi' (two hj trivial hk ⟨hz, trivial⟩) hs fun a ha => ?_
  rw [ha, run_all hi', effects_one] at h
  rw [effects_one]
  unfold effects
  simp only [effects_one, Act.effect, Arm.loadTo, Off.got] at h ⊢
  generalize (if add = true then align4 (a.reg 15 + 4#32) + imm else align4 (a.reg 15 + 4#32) - imm) = x at h ⊢
  have e : (a.afterWrite j.size t x).reg t + 0#32 = x := by
    rw [Arm.afterWrite, Arm.next, reg_set_ne _ _ (by omega) (by omega) (by omega), reg_set, if_pos (.inl rfl),
      keepBits_plain (by omega) (by omega)]
    simp
  rw [e, show (a.afterWrite j.size t x).mem = a.mem from rfl]
  cases hp : peek a.mem x.toNat (sz / 8) with
  | error e => rw [hp] at h; cases h
  | ok v =>
    refine ⟨rfl, ((near_next _ _).trans ?_).trans (near_next _ _).symm⟩
    refine ⟨rfl, rfl, fun q hq => ?_⟩
    rw [reg_set, reg_set]
    split
    · rfl
    · rename_i h
      rw [Arm.afterWrite, Arm.next, reg_set_ne _ _ hq (by omega) (by omega), reg_set, if_neg h]

/-- The offset is this word in this state. -/
def Offset (s : Machine) (m : Nat) (sh : Nat) (v : Word) : Prop := ∃ x : Word, s.regs (some m) = some (x.toNat : Int) ∧ x <<< sh = v

theorem offset_got {a : Arm} {m sh : Nat} (hm : m < 15) {v : Word} (h : Offset a.conc m sh v) : (Off.reg m (.lsl, sh)).got a = v := by
  obtain ⟨x, h1, h2⟩ := h
  have hc : (m : Int) ∈ coreIndices := by
    have : m = 0 ∨ m = 1 ∨ m = 2 ∨ m = 3 ∨ m = 4 ∨ m = 5 ∨ m = 6 ∨ m = 7 ∨ m = 8 ∨ m = 9 ∨ m = 10 ∨ m = 11 ∨ m = 12 ∨ m = 13 ∨ m = 14 := by
      omega
    rcases this with rfl | rfl | rfl | rfl | rfl | rfl | rfl | rfl | rfl | rfl | rfl | rfl | rfl | rfl | rfl <;> decide
  rw [conc_core a hc] at h1
  have e : a.reg m = x := BitVec.eq_of_toNat_eq (Int.ofNat.inj (Option.some.inj h1))
  simp only [Off.got, C18.armShift, e]
  split
  · rename_i h0; rw [← h2, h0]; simp
  · exact h2

/-- **C105.** A register as an offset does the same as a constant that is the shifted register. -/
theorem register_offset {sz t n m sh : Nat} {sgn : Bool} {v : Word} (hz : SizeOK sz) (hm : m < 15) {i j : Instr} {s : Machine} (hs : Regs32 s)
    (ho : Offset s m sh v) :
    ((Act.load sz sgn t n (.reg m (.lsl, sh))).Of i → (Act.load sz sgn t n (.imm v)).Of j → SameEnd (executeAll [i] s) (executeAll [j] s)) ∧
    ((Act.store sz t n (.reg m (.lsl, sh))).Of i → (Act.store sz t n (.imm v)).Of j → SameEnd (executeAll [i] s) (executeAll [j] s)) := by
  have hv : (Off.reg m (.lsl, sh)).Valid := fun h => by cases h
  refine ⟨fun hi hj => ?_, fun hi hj => ?_⟩
  · refine same_end (one hi ⟨hz, hv⟩) (one hj ⟨hz, trivial⟩) hs fun a ha => ?_
    rw [ha] at ho
    rw [effects_one, effects_one]
    simp only [Act.effect, offset_got hm ho, Arm.loadTo]
    rw [show (Off.imm v).got a = v from rfl]
    cases hp : peek a.mem (a.reg n + v).toNat (sz / 8) with
    | error e => exact ⟨rfl, Near.rfl' a⟩
    | ok v => exact ⟨rfl, (Near.rfl' _).next _ _⟩
  · refine same_end (one hi ⟨hz, hv⟩) (one hj ⟨hz, trivial⟩) hs fun a ha => ?_
    rw [ha] at ho
    rw [effects_one, effects_one]
    simp only [Act.effect, offset_got hm ho]
    exact ⟨rfl, (Near.rfl' _).next _ _⟩

/-- Four words at 0x100. -/
def words : List Region := [⟨0x100, 0x10f, [0x81, 0x02, 0x03, 0x04, 0xf5, 0xf6, 0xf7, 0xf8, 9, 10, 11, 12, 13, 14, 15, 16]⟩]

/-- `ldm.w r1, {r0, r2}` and `ldr r0, [r1]; ldr r2, [r1, #4]`. -/
example :
    ranRegs [0x91, 0xe8, 0x05, 0x00] (sample [(1, 0x100)] words) [0, 1, 2] = some [some 0x04030281, some 0x100, some 0xf8f7f6f5] ∧
    ((ran [0x08, 0x68] (sample [(1, 0x100)] words)).bind fun s => ranRegs [0x4a, 0x68] s [0, 1, 2]) =
      some [some 0x04030281, some 0x100, some 0xf8f7f6f5] := by
  refine ⟨?_, ?_⟩ <;> simp only [ranRegs, ran] <;> rw [trees, decoders_eq] <;> decide +kernel

/-- `ldrsb r0, [r1, r2]` and `ldrb r0, [r1, r2]; sxtb r0, r0`. -/
example :
    ranRegs [0x88, 0x56] (sample [(1, 0x100), (2, 4)] words) [0] = some [some 0xfffffff5] ∧
    ((ran [0x88, 0x5c] (sample [(1, 0x100), (2, 4)] words)).bind fun s => ranRegs [0x40, 0xb2] s [0]) = some [some 0xfffffff5] := by
  refine ⟨?_, ?_⟩ <;> simp only [ranRegs, ran] <;> rw [trees, decoders_eq] <;> decide +kernel

/-- `ldr r0, [pc, #4]` and `adr r0, #4; ldr r0, [r0]`, at 0xfc. -/
example :
    ranRegs [0x01, 0x48] (sample [(15, 0xfc)] words) [0] = some [some 0xf8f7f6f5] ∧
    ((ran [0x01, 0xa0] (sample [(15, 0xfc)] words)).bind fun s => ranRegs [0x00, 0x68] s [0]) = some [some 0xf8f7f6f5] := by
  refine ⟨?_, ?_⟩ <;> simp only [ranRegs, ran] <;> rw [trees, decoders_eq] <;> decide +kernel

/-- `stm.w r1, {r0, r2}` and `str r0, [r1]; str r2, [r1, #4]`. -/
example :
    ranMem [0x81, 0xe8, 0x05, 0x00] (sample [(0, 0x01020304), (1, 0x104), (2, 0x05060708)] words) =
      some [[0x81, 0x02, 0x03, 0x04, 4, 3, 2, 1, 8, 7, 6, 5, 13, 14, 15, 16]] ∧
    ((ran [0x08, 0x60] (sample [(0, 0x01020304), (1, 0x104), (2, 0x05060708)] words)).bind fun s => ranMem [0x4a, 0x60] s) =
      some [[0x81, 0x02, 0x03, 0x04, 4, 3, 2, 1, 8, 7, 6, 5, 13, 14, 15, 16]] := by
  refine ⟨?_, ?_⟩ <;> simp only [ranMem, ran] <;> rw [trees, decoders_eq] <;> decide +kernel

end C105
end Verif
