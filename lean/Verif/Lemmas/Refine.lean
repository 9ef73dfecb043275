import Verif.Lemmas.Effect
import Verif.Props.C36to39

/-!
# When executing an instruction does what the manual says

`Act.Right` is a sufficient condition on the state for the effect of an action to be the
one of the manual; `effect_right` proves it for all actions at once.
-/

namespace Verif
open BS CpuM Thumb Exec

/-! ### Machines and their registers -/

theorem shows_conc (a : Arm) (c : Core) :
    Shows a.conc c ↔ (∀ k ∈ coreIndices, a.reg k = c.reg k) ∧ flat a.mem = c.mem := by
  unfold Shows
  refine and_congr ?_ Iff.rfl
  refine forall_congr' fun k => forall_congr' fun hk => ?_
  simp only [Arm.conc, if_pos hk, Option.some.injEq]
  constructor
  · intro h; exact BitVec.eq_of_toNat_eq (by omega)
  · intro h; rw [h]

theorem shows_core (a : Arm) : Shows a.conc a.core := (shows_conc a a.core).mpr ⟨fun _ _ => rfl, rfl⟩

theorem Shows.arm {s : Machine} {c : Core} (h : Shows s c) : ∃ a : Arm, s = a.conc ∧ a.core = c ∧ a.mem = s.mem := by
  refine ⟨⟨c.reg, s.regs, s.mem⟩, ?_, ?_, rfl⟩
  · apply Machine.ext
    · intro k
      cases k with
      | none => rfl
      | some i =>
        simp only [Arm.conc]
        by_cases hi : i ∈ coreIndices
        · rw [if_pos hi, h.1 i hi]
        · rw [if_neg hi]
    · rfl
  · unfold Arm.core
    rw [h.2]

theorem ends_iff {act : Act} {i : Instr} (h : act.Of i) (hv : act.Valid) (a : Arm) (c : Core) :
    EndsIn i a.conc c ↔ (act.effect i.size a).1 = .ok () ∧ Shows (act.effect i.size a).2.conc c := by
  unfold EndsIn
  rw [eval_exact h hv a]
  cases he : act.effect i.size a with
  | mk res b =>
    cases res with
    | ok u =>
      constructor
      · rintro ⟨i', s', h1, h2⟩
        have h3 : (Except.ok (act.leaves a i), b.conc) = (Except.ok i', s') := h1
        cases h3
        exact ⟨rfl, h2⟩
      · rintro ⟨_, h2⟩
        exact ⟨_, _, rfl, h2⟩
    | error e =>
      constructor
      · rintro ⟨i', s', h1, h2⟩
        have h3 : (Except.error e, b.conc) = (Except.ok i', s') := h1
        cases h3
      · rintro ⟨h1, _⟩
        cases h1

theorem does_iff {act : Act} {i : Instr} (h : act.Of i) (hv : act.Valid) (a : Arm) :
    Does i act a.conc a.core ↔ (act.effect i.size a).1 = .ok () ∧ Shows (act.effect i.size a).2.conc (act.run i.size a.core) :=
  ends_iff h hv a _

theorem ends_of {act : Act} {i : Instr} (h : act.Of i) (hv : act.Valid) {a b : Arm} (he : act.effect i.size a = (.ok (), b)) :
    EndsIn i a.conc b.core := by
  rw [ends_iff h hv, he]
  exact ⟨rfl, shows_core b⟩

theorem does_of {act : Act} {i : Instr} (h : act.Of i) (hv : act.Valid) {a b : Arm} (he : act.effect i.size a = (.ok (), b))
    (hb : b.core = act.run i.size a.core) : Does i act a.conc a.core := by
  rw [does_iff h hv, he]
  refine ⟨rfl, ?_⟩
  rw [← hb]
  exact shows_core b

/-! ### Registers of cores -/

theorem core_reg (a : Arm) (k : Int) : a.core.reg k = a.reg k := rfl
theorem core_flag (a : Arm) (k : Nat) : a.core.flag k = a.flag k := rfl
theorem next_core (a : Arm) (size : Nat) : (a.next size).core = a.core.next size := rfl

theorem core_reg_set (c : Core) (k j : Int) (v : Word) :
    (c.set k v).reg j = if j = k ∨ (k = 13 ∧ j = 17) ∨ (k = 17 ∧ j = 13) then keepBits k v else c.reg j := rfl

theorem core_set_comm (c : Core) {j k : Int} (h : j ≠ k) (h1 : ¬ (j = 13 ∧ k = 17)) (h2 : ¬ (j = 17 ∧ k = 13)) (v w : Word) :
    (c.set j v).set k w = (c.set k w).set j v := by
  apply Core.ext
  · funext i
    simp only [core_reg_set]
    by_cases a1 : i = j ∨ (j = 13 ∧ i = 17) ∨ (j = 17 ∧ i = 13)
    · by_cases a2 : i = k ∨ (k = 13 ∧ i = 17) ∨ (k = 17 ∧ i = 13)
      · exfalso; omega
      · simp only [if_pos a1, if_neg a2]
    · simp only [if_neg a1]
  · rfl

theorem core_reg16_set (c : Core) {d : Nat} (h : d < 16) (v : Word) : (c.set d v).reg 16 = c.reg 16 := by
  rw [core_reg_set, if_neg (by omega)]

theorem core_flags_set (c : Core) {d : Nat} (h : d < 16) (v : Word) (on : Bool) (r : Word) (cf vf : Option Bool) :
    (c.set d v).flags on r cf vf = (c.flags on r cf vf).set d v := by
  unfold Core.flags
  cases on
  · rfl
  · simp only [if_true]
    rw [core_reg16_set c h, core_set_comm c (by omega) (by omega) (by omega)]

theorem core_result {c : Core} {size d : Nat} (h : d < 15) (v : Word) : c.result size d v = (c.set d v).next size := by
  unfold Core.result
  rw [if_neg (by omega)]

theorem core_rd (c : Core) {k : Nat} (h : k < 15) : c.rd k = c.reg k := by
  unfold Core.rd
  rw [if_neg (by omega)]

theorem core_rd15 (c : Core) : c.rd 15 = c.reg 15 + 4#32 := rfl

theorem src_val {src : Src} (h : src.NoPc) (a : Arm) : src.val a.core = src.got a := by
  cases src with
  | reg m => exact core_rd _ h
  | imm v => rfl

theorem off_val {off : Off} (h : off.NoPc) (a : Arm) : off.val a.core = off.got a := by
  cases off with
  | reg m sh =>
    show (C18.armShift (a.core.rd m) _ _ _).1 = _
    rw [core_rd _ h]
    rfl
  | imm v => rfl

theorem spoil_of {x : Word} (h : x.msb = false) : C17.spoil x = x := by
  unfold C17.spoil; rw [h]; rfl

theorem afterAdd_core_any (a : Arm) (size : Nat) (flags : Bool) {d : Nat} (hd : d < 15) (x y : Word) (c : Bool) :
    (a.afterAdd size flags d x y c).core =
      (a.core.flags flags (C17.spoil (C17.sum x y c)) (some (C17.carryOut x y c)) (some (C17.overflow x y c))).result size d
        (C17.spoil (C17.sum x y c)) := by
  rw [core_result hd, ← core_flags_set _ (by omega)]
  unfold Arm.afterAdd Arm.flags Core.flags
  cases flags <;> rfl

theorem afterAdd_core (a : Arm) (size : Nat) (flags : Bool) {d : Nat} (hd : d < 15) (x y : Word) (c : Bool)
    (h : (C17.sum x y c).msb = false) :
    (a.afterAdd size flags d x y c).core =
      (a.core.flags flags (C17.sum x y c) (some (C17.carryOut x y c)) (some (C17.overflow x y c))).result size d (C17.sum x y c) := by
  rw [afterAdd_core_any a size flags hd, spoil_of h]

theorem afterOp_core (a : Arm) (size : Nat) (flags : Bool) {d : Nat} (hd : d < 15) (r : Word) (c : Option Bool) :
    (a.afterOp size flags d r c).core = (a.core.flags flags r c none).result size d r := by
  rw [core_result hd, ← core_flags_set _ (by omega)]
  unfold Arm.afterOp Arm.flags Core.flags
  cases flags <;> rfl

theorem afterWrite_core (a : Arm) (size : Nat) {d : Nat} (hd : d < 15) (r : Word) :
    (a.afterWrite size d r).core = a.core.result size d r := by
  rw [core_result hd]; rfl

/-! ### Memory -/

theorem peek_word {mem : List Region} (hm : MemOK mem) {x : Word} {n : Nat} (hn : n = 1 ∨ n = 2 ∨ n = 4) (hin : Inside mem x.toNat n)
    (reg : Int → Word) :
    ∃ u, peek mem x.toNat n = .ok u ∧ u % 2 ^ (8 * n) = (Core.mk reg (flat mem)).read x n := by
  obtain ⟨v, h1, h2, u, h3, h4⟩ := peek_inside hm hn hin
  refine ⟨u, h3, ?_⟩
  unfold Core.read
  rw [h1, h4]
  rfl

theorem extended_mod (sgn : Bool) (sz u : Nat) : extended sgn sz (u % 2 ^ sz) = extended sgn sz u := by
  unfold extended
  have : BitVec.ofNat sz (u % 2 ^ sz) = BitVec.ofNat sz u := by
    apply BitVec.eq_of_toNat_eq; simp
  rw [this]

theorem loadTo_core {a : Arm} (hm : MemOK a.mem) {size sz : Nat} (hs : SizeOK sz) (sgn : Bool) {t : Nat} (ht : t < 15) {x : Word}
    (hin : Inside a.mem x.toNat (sz / 8)) :
    ∃ b, a.loadTo size sz sgn t x = (.ok (), b) ∧ b.core = a.core.result size t (extended sgn sz (a.core.read x (sz / 8))) := by
  unfold SizeOK at hs
  obtain ⟨u, h1, h2⟩ := peek_word hm (by omega) hin a.reg
  refine ⟨a.afterWrite size t (extended sgn sz u), ?_, ?_⟩
  · unfold Arm.loadTo; rw [h1]
  · rw [afterWrite_core a size ht, ← extended_mod]
    rw [show 8 * (sz / 8) = sz by omega] at h2
    rw [h2]; rfl

theorem poke_core {a : Arm} (hm : MemOK a.mem) {x : Word} {n : Nat} (h0 : 0 < n) (hin : Inside a.mem x.toNat n) (v : Word) :
    (a.poke x n v).core = a.core.write x n v.toNat := by
  unfold Arm.poke Arm.core Core.write
  rw [flat_poke hm h0 hin]

theorem words_tail {mem : List Region} {x : Word} {n : Nat} (h : Words mem x (n + 1)) :
    Inside mem x.toNat 4 ∧ Words mem (x + 4#32) n := by
  constructor
  · have := h 0 (by omega)
    rw [show x + w32 (4 * 0) = x by unfold w32; simp] at this
    exact this
  · intro j hj
    have := h (j + 1) (by omega)
    rw [show x + w32 (4 * (j + 1)) = x + 4#32 + w32 (4 * j) by
      rw [BitVec.add_assoc]; unfold w32; rw [← BitVec.ofNat_add, show 4 + 4 * j = 4 * (j + 1) by omega]] at this
    exact this

theorem words_poke {mem : List Region} {x : Word} {n : Nat} {y : Int} {k : Nat} {v : Int} :
    Words (poke mem y k v) x n ↔ Words mem x n := by
  unfold Words
  refine forall_congr' fun j => forall_congr' fun _ => inside_poke

theorem storeAll_core : ∀ (ks : List Nat) (x : Word) (a : Arm), MemOK a.mem → Words a.mem x ks.length →
    (a.storeAll ks x).core = a.core.storeAll ks x
  | [], _, _, _, _ => rfl
  | k :: ks, x, a, hm, h => by
    obtain ⟨h1, h2⟩ := words_tail h
    have hp := poke_core hm (by omega) h1 (a.reg k)
    unfold Arm.storeAll Core.storeAll
    rw [storeAll_core ks (x + 4#32) (a.poke x 4 (a.reg k)) (poke_ok hm (by omega) h1 _) (words_poke.mpr h2), hp]
    rfl

theorem storeAll_reg : ∀ (ks : List Nat) (x : Word) (a : Arm), (a.storeAll ks x).reg = a.reg
  | [], _, _ => rfl
  | k :: ks, x, a => by
    unfold Arm.storeAll
    rw [storeAll_reg ks]; rfl

theorem w32_mod (u : Nat) : w32 (u % 2 ^ 32) = w32 u := by
  unfold w32
  apply BitVec.eq_of_toNat_eq; simp

theorem next_addr (x : Word) (n : Nat) : x + 4#32 + w32 (4 * n) = x + w32 (4 * (n + 1)) := by
  rw [BitVec.add_assoc]
  unfold w32
  rw [← BitVec.ofNat_add, show 4 + 4 * n = 4 * (n + 1) by omega]

theorem loadAll_core : ∀ (ks : List Nat) (x : Word) (a : Arm), MemOK a.mem → (∀ k ∈ ks, k < 15) → Words a.mem x ks.length →
    ∃ b, a.loadAll ks x = (.ok (x + w32 (4 * ks.length)), b) ∧ b.core = a.core.loadAll ks x ∧ b.mem = a.mem
  | [], x, a, _, _, _ => ⟨a, by simp [Arm.loadAll, w32], rfl, rfl⟩
  | k :: ks, x, a, hm, hk, h => by
    obtain ⟨h1, h2⟩ := words_tail h
    obtain ⟨u, p1, p2⟩ := peek_word hm (by omega) h1 a.reg
    obtain ⟨b, q1, q2, q3⟩ := loadAll_core ks (x + 4#32) (a.set k (w32 u)) hm (fun j hj => hk j (List.mem_cons_of_mem _ hj)) h2
    refine ⟨b, ?_, ?_, q3⟩
    · unfold Arm.loadAll
      rw [p1]
      simp only
      rw [q1, next_addr, List.length_cons]
    · rw [q2]
      have hk' := hk k List.mem_cons_self
      show _ = (a.core.set k (if k = 15 then _ else w32 (a.core.read x 4))).loadAll ks (x + 4#32)
      rw [if_neg (by omega), show a.core.read x 4 = u % 2 ^ 32 from p2.symm, w32_mod]
      rfl

theorem core_loadAll_append : ∀ (ks ls : List Nat) (x : Word) (c : Core),
    c.loadAll (ks ++ ls) x = (c.loadAll ks x).loadAll ls (x + w32 (4 * ks.length))
  | [], ls, x, c => by simp [Core.loadAll, w32]
  | k :: ks, ls, x, c => by
    rw [List.cons_append]
    show (Core.loadAll _ (ks ++ ls) (x + 4#32)) = (Core.loadAll _ ks (x + 4#32)).loadAll ls _
    rw [core_loadAll_append ks ls, next_addr, List.length_cons]

theorem core_loadAll_mem : ∀ (ks : List Nat) (x : Word) (c : Core), (c.loadAll ks x).mem = c.mem
  | [], _, _ => rfl
  | k :: ks, x, c => by
    unfold Core.loadAll
    rw [core_loadAll_mem]; rfl

theorem listed_eq (r : BitVec 16) : listed r = low15 r ++ (if r.getLsbD 15 then [15] else []) := by
  unfold listed low15
  rw [show List.range 16 = List.range 15 ++ [15] from rfl, List.filter_append]
  congr 1
  cases h : r.getLsbD 15
  · rw [List.filter_cons_of_neg (by rw [h]; decide)]; rfl
  · rw [List.filter_cons_of_pos (by rw [h])]; rfl

theorem count_eq (r : BitVec 16) : count r = (low15 r).length + (r.getLsbD 15).toNat := by
  have : count r = (listed r).length := rfl
  rw [this, listed_eq, List.length_append]
  cases r.getLsbD 15 <;> rfl

theorem low15_lt {r : BitVec 16} : ∀ k ∈ low15 r, k < 15 := fun k hk => by
  have := List.mem_range.mp (List.mem_filter.mp hk).1
  exact this

theorem words_le {mem : List Region} {x : Word} {m n : Nat} (h : m ≤ n) (hw : Words mem x n) : Words mem x m :=
  fun j hj => hw j (by omega)

/-- The word at the address of PC in a load of several registers is even. -/
def EvenPc (c : Core) (r : BitVec 16) (x : Word) : Prop :=
  r.getLsbD 15 = true → (w32 (c.read (x + w32 (4 * (low15 r).length)) 4)).getLsbD 0 = false

theorem clear0 {x : Word} (h : x.getLsbD 0 = false) : x &&& ~~~1#32 = x := by
  apply BitVec.eq_of_getLsbD_eq
  intro k hk
  rw [BitVec.getLsbD_and, BitVec.getLsbD_not]
  by_cases h0 : k = 0
  · subst h0; rw [h]; rfl
  · have : (1#32).getLsbD k = false := by
      rw [show (1#32) = BitVec.ofNat 32 (2 ^ 1 - 1) from rfl, ones_bit, decide_eq_false (show ¬ k < 1 by omega)]; simp
    rw [this, decide_eq_true hk]
    simp

theorem loadRegs_core {a : Arm} (hm : MemOK a.mem) (size : Nat) (r : BitVec 16) (x : Word) (hw : Words a.mem x (count r))
    (he : EvenPc a.core r x) :
    ∃ b, a.loadRegs size r x = (.ok (), b) ∧ b.core = (a.core.loadAll (listed r) x).nextUnless (r.getLsbD 15) size := by
  rw [count_eq] at hw
  obtain ⟨b, q1, q2, q3⟩ := loadAll_core (low15 r) x a hm low15_lt (words_le (by omega) hw)
  unfold Arm.loadRegs
  rw [q1, listed_eq, core_loadAll_append, ← q2]
  simp only
  unfold Arm.loadPc Core.nextUnless
  cases h15 : r.getLsbD 15
  · exact ⟨_, rfl, rfl⟩
  · simp only [if_true]
    rw [h15] at hw
    have hin := hw (low15 r).length (by simp)
    obtain ⟨u, p1, p2⟩ := peek_word hm (by omega) hin b.reg
    refine ⟨b.set 15 (w32 u), ?_, ?_⟩
    · rw [q3, p1]
    · have hev := he h15
      have hmem : b.core.mem = a.core.mem := by rw [q2, core_loadAll_mem]
      show _ = b.core.set ((15 : Nat) : Int) (if 15 = 15 then w32 (b.core.read _ 4) &&& ~~~1#32 else _)
      have hread : b.core.read (x + w32 (4 * (low15 r).length)) 4 = a.core.read (x + w32 (4 * (low15 r).length)) 4 := by
        unfold Core.read; rw [hmem]
      rw [if_pos rfl, hread, clear0 hev]
      have : a.core.read (x + w32 (4 * (low15 r).length)) 4 = u % 2 ^ 32 := p2.symm
      rw [this, w32_mod]
      rfl

/-! ### All actions -/

theorem newFlags_bit (x : Word) (n z : Bool) (c v : Option Bool) (k : Nat) : (newFlags x n z c v).getLsbD k =
    if k = 31 then n else if k = 30 then z else if k = 29 then c.getD (x.getLsbD 29)
    else if k = 28 then v.getD (x.getLsbD 28) else x.getLsbD k := by
  unfold newFlags
  cases c <;> cases v <;>
    simp only [getLsbD_withBit _ _ (show 31 < 32 by omega), getLsbD_withBit _ _ (show 30 < 32 by omega),
      getLsbD_withBit _ _ (show 29 < 32 by omega), getLsbD_withBit _ _ (show 28 < 32 by omega), Option.getD] <;>
    grind

/-- Setting C to the value it has is leaving it. -/
theorem flags_carry (c : Core) (on : Bool) (r : Word) {carry : Option Bool} (h : on = true → carry.getD (c.flag 29) = c.flag 29) :
    c.flags on r carry none = c.flags on r none none := by
  cases on with
  | false => rfl
  | true =>
    unfold Core.flags
    rw [if_pos rfl, if_pos rfl]
    congr 1
    apply BitVec.eq_of_getLsbD_eq
    intro k _
    simp only [newFlags_bit]
    have := h rfl
    rw [show (c.reg 16).getLsbD 29 = c.flag 29 from rfl, this]
    rfl

/-- A sufficient condition for the program to do what the manual says. -/
def Thumb.Act.Right (mem : List Region) (c : Core) : Act → Prop
  | .addSub sub carry _ _ n src =>
    (C17.sum (c.reg n) (if sub then ~~~src.val c else src.val c) (if carry then c.flag 29 else sub)).msb = false
  | .rsb _ _ n imm => (C17.sum (~~~c.reg n) imm true).msb = false
  | .cmp sub n src => (C17.sum (c.reg n) (if sub then ~~~src.val c else src.val c) sub).msb = false
  | .mov _ flags _ _ carry => flags = true → carry.getD (c.flag 29) = c.flag 29
  | .mvnShift _ _ _ _ => False
  | .blx m => m ≠ 14
  | .load sz _ _ n off => Inside mem (c.reg n + off.val c).toNat (sz / 8)
  | .store sz _ n off => Inside mem (c.reg n + off.val c).toNat (sz / 8)
  | .loadLit sz _ add _ imm =>
    Inside mem (if add then align4 (c.rd 15) + imm else align4 (c.rd 15) - imm).toNat (sz / 8)
  | .push r => r.getLsbD 15 = false ∧ Words mem (c.reg 13 - w32 (4 * count r)) (count r)
  | .pop r => Words mem (c.reg 13) (count r) ∧ EvenPc c r (c.reg 13)
  | .ldm n _ r => Words mem (c.reg n) (count r) ∧ EvenPc c r (c.reg n)
  | .stm n _ r => r.getLsbD 15 = false ∧ Words mem (c.reg n) (count r)
  | .cps _ pri fault => c.privileged = true ∨ (pri = false ∧ fault = false)
  | .mrs _ sysm => ¬ (sysm.toNat < 8 ∧ sysm.toNat / 4 % 2 = 0) ∧ ((sysm.toNat = 5 ∨ sysm.toNat = 7) → c.reg 16 &&& 0x1c0#32 = 0#32)
  | .msr n mask sysm => c.writeSpecial mask.toNat sysm.toNat (c.reg n) = c
  | _ => True

theorem core_loadAll_reg {n : Nat} (hn : n < 15) : ∀ (ks : List Nat) (x : Word) (c : Core), (∀ k ∈ ks, k < 16 ∧ k ≠ n) →
    (c.loadAll ks x).reg n = c.reg n
  | [], _, _, _ => rfl
  | k :: ks, x, c, h => by
    have hk := h k List.mem_cons_self
    unfold Core.loadAll
    rw [core_loadAll_reg hn ks _ _ (fun j hj => h j (List.mem_cons_of_mem _ hj)), core_reg_set, if_neg (by omega)]

theorem low_bits (x : Word) (h : x &&& 0x1c0#32 = 0#32) : x &&& 0x3f#32 = x &&& 0x1ff#32 := by
  have : (0x1ff#32) = 0x3f#32 ||| 0x1c0#32 := by decide
  rw [this, show x &&& (0x3f#32 ||| 0x1c0#32) = (x &&& 0x3f#32) ||| (x &&& 0x1c0#32) by
    apply BitVec.eq_of_getLsbD_eq; intro k _; simp only [BitVec.getLsbD_and, BitVec.getLsbD_or]; cases x.getLsbD k <;> simp, h]
  simp

theorem special_right (a : Arm) (s : BitVec 8) (h1 : ¬ (s.toNat < 8 ∧ s.toNat / 4 % 2 = 0))
    (h2 : (s.toNat = 5 ∨ s.toNat = 7) → a.core.reg 16 &&& 0x1c0#32 = 0#32) :
    a.special s.toNat = .ok (a.core.special s.toNat) := by
  have hs : s.toNat < 256 := s.isLt
  generalize s.toNat = n at *
  unfold Arm.special Core.special
  have hp : a.core.privileged = a.privileged := rfl
  have hr : a.core.reg = a.reg := rfl
  rw [hp, hr]
  rw [hr] at h2
  by_cases c0 : n < 8
  · rw [if_pos (by omega), if_neg (by omega), if_pos c0]
    have h4 : ¬ n / 4 % 2 = 0 := fun h => h1 ⟨c0, h⟩
    rw [if_neg h4]
    by_cases hodd : n % 2 = 1
    · rw [if_pos hodd, if_pos hodd, low_bits _ (h2 (by omega))]; simp
    · rw [if_neg hodd, if_neg hodd]; rfl
  · rw [if_neg (by omega), if_neg c0]
    by_cases g1 : n / 8 = 1
    · rw [if_pos g1]
      congr 1
      have e8 : (n % 8 = 0) = (n = 8) := by apply propext; omega
      have e9 : (n % 8 = 1) = (n = 9) := by apply propext; omega
      simp only [e8, e9]
      rw [if_neg (show ¬ n = 16 by omega), if_neg (show ¬ (n = 17 ∨ n = 18) by omega), if_neg (show ¬ n = 19 by omega),
        if_neg (show ¬ n = 20 by omega)]
      cases a.privileged <;> simp
    · rw [if_neg g1, if_neg (show ¬ n = 8 by omega), if_neg (show ¬ n = 9 by omega)]
      by_cases g2 : n / 8 = 2
      · rw [if_pos g2]
        congr 1
        have e0 : (n % 8 = 0) = (n = 16) := by apply propext; omega
        have e1 : (n % 8 = 1 ∨ n % 8 = 2) = (n = 17 ∨ n = 18) := by apply propext; omega
        have e3 : (n % 8 = 3) = (n = 19) := by apply propext; omega
        have e4 : (n % 8 = 4) = (n = 20) := by apply propext; omega
        simp only [e0, e1, e3, e4]
      · rw [if_neg g2, if_neg (show ¬ n = 16 by omega), if_neg (show ¬ (n = 17 ∨ n = 18) by omega), if_neg (show ¬ n = 19 by omega),
        if_neg (show ¬ n = 20 by omega)]

theorem effect_right {act : Act} (hv : act.Valid) (hp : act.NoPc) (size : Nat) (a : Arm) (hm : MemOK a.mem)
    (hr : act.Right a.mem a.core) : ∃ b, act.effect size a = (.ok (), b) ∧ b.core = act.run size a.core := by
  cases act with
  | addSub sub carry flags d n src =>
    obtain ⟨h1, h2, h3⟩ := hp
    refine ⟨_, rfl, ?_⟩
    simp only [Act.Right, src_val h3, core_reg, core_flag] at hr
    rw [afterAdd_core a size flags h1 _ _ _ hr]
    simp only [Act.run, src_val h3, core_rd _ h2]
    rfl
  | rsb flags d n imm =>
    obtain ⟨h1, h2⟩ := hp
    refine ⟨_, rfl, ?_⟩
    simp only [Act.Right, core_reg] at hr
    rw [afterAdd_core a size flags h1 _ _ _ hr]
    simp only [Act.run, core_rd _ h2]
    rfl
  | logic f flags d n m =>
    obtain ⟨h1, h2, h3⟩ := hp
    refine ⟨_, rfl, ?_⟩
    rw [afterOp_core a size flags h1]
    simp only [Act.run, core_rd _ h2, core_rd _ h3]
    rfl
  | bic flags d n m =>
    obtain ⟨h1, h2, h3⟩ := hp
    refine ⟨_, rfl, ?_⟩
    rw [afterOp_core a size flags h1]
    simp only [Act.run, core_rd _ h2, core_rd _ h3]
    rfl
  | shiftImm t flags d m k =>
    obtain ⟨h1, h2⟩ := hp
    refine ⟨_, rfl, ?_⟩
    rw [afterOp_core a size flags h1]
    simp only [Act.run, core_rd _ h2]
    rfl
  | shiftReg t flags d n m =>
    obtain ⟨h1, h2, h3⟩ := hp
    refine ⟨_, rfl, ?_⟩
    rw [afterOp_core a size flags h1]
    simp only [Act.run, core_rd _ h2, core_rd _ h3]
    rfl
  | mul flags d n m =>
    obtain ⟨h1, h2, h3⟩ := hp
    refine ⟨_, rfl, ?_⟩
    rw [afterOp_core a size flags h1]
    simp only [Act.run, core_rd _ h2, core_rd _ h3]
    rfl
  | adr add d imm =>
    refine ⟨_, rfl, ?_⟩
    rw [afterWrite_core a size hp]
    rfl
  | extend sgn width rotation d m =>
    obtain ⟨h1, h2⟩ := hp
    refine ⟨_, rfl, ?_⟩
    rw [afterWrite_core a size h1]
    simp only [Act.run, core_rd _ h2]
    rfl
  | rev kind d m =>
    obtain ⟨h1, h2⟩ := hp
    refine ⟨_, rfl, ?_⟩
    rw [afterWrite_core a size h1]
    simp only [Act.run, core_rd _ h2]
    cases kind <;> rfl
  | mov neg flags d src carry =>
    obtain ⟨h1, h2⟩ := hp
    refine ⟨_, rfl, ?_⟩
    have hs : decide (src = .reg 15) = false := by
      apply decide_eq_false
      intro h
      rw [h] at h2
      exact absurd (show (15 : Nat) < 15 from h2) (by omega)
    rw [afterOp_core a size _ h1]
    simp only [Act.run, src_val h2, hs, Bool.not_false, Bool.and_true]
    rw [flags_carry _ _ _ hr]
  | mvnShift flags d m sh => exact hr.elim
  | cmp sub n src =>
    obtain ⟨h1, h2⟩ := hp
    refine ⟨_, rfl, ?_⟩
    simp only [Act.Right, src_val h2, core_reg] at hr
    simp only [Act.run, src_val h2, core_rd _ h1]
    rw [spoil_of hr]
    rfl
  | tst n m sh =>
    obtain ⟨h1, h2⟩ := hp
    refine ⟨_, rfl, ?_⟩
    simp only [Act.run, core_rd _ h1, core_rd _ h2]
    rfl
  | branch cond offset =>
    refine ⟨_, rfl, ?_⟩
    show _ = if a.core.holds cond then _ else _
    have : a.core.holds cond = a.holds cond := rfl
    rw [this]
    cases a.holds cond <;> rfl
  | bl offset => exact ⟨_, rfl, rfl⟩
  | blx m =>
    refine ⟨_, rfl, ?_⟩
    have hne : m ≠ 14 := hr
    have hp' : m < 15 := hp
    simp only [Act.run, core_rd _ hp']
    rw [reg_set_ne a _ (by omega) (by omega) (by omega)]
    rfl
  | bx m =>
    refine ⟨_, rfl, ?_⟩
    have hp' : m < 15 := hp
    simp only [Act.run, core_rd _ hp']
    rfl
  | load sz sgn t n off =>
    obtain ⟨h1, h2, h3⟩ := hp
    simp only [Act.Right, off_val h3, core_reg] at hr
    obtain ⟨b, q1, q2⟩ := loadTo_core (size := size) hm hv.1 sgn h1 hr
    refine ⟨b, q1, ?_⟩
    rw [q2]
    simp only [Act.run, core_rd _ h2, off_val h3, core_reg]
  | store sz t n off =>
    obtain ⟨h1, h2, h3⟩ := hp
    simp only [Act.Right, off_val h3, core_reg] at hr
    refine ⟨_, rfl, ?_⟩
    have hs := hv.1
    unfold SizeOK at hs
    have := poke_core hm (show 0 < sz / 8 by omega) hr (a.reg t)
    simp only [Act.run, core_rd _ h2, core_rd _ h1, off_val h3]
    rw [next_core, this]
    rfl
  | loadLit sz sgn add t imm =>
    obtain ⟨b, q1, q2⟩ := loadTo_core (size := size) hm hv sgn hp hr
    exact ⟨b, q1, q2⟩
  | push r =>
    obtain ⟨h1, h2⟩ := hr
    refine ⟨_, rfl, ?_⟩
    have hl : listed r = low15 r := by rw [listed_eq, h1]; simp
    have := storeAll_core (low15 r) (a.reg 13 - w32 (4 * count r)) (a.set 13 (a.reg 13 - w32 (4 * count r))) hm
      (by rw [← hl]; exact h2)
    simp only [Act.run, hl]
    rw [next_core, this]
    rfl
  | pop r =>
    obtain ⟨h1, h2⟩ := hr
    exact loadRegs_core (a := a.set 13 (a.reg 13 + w32 (4 * count r))) hm size r (a.reg 13) h1 h2
  | ldm n wback r =>
    obtain ⟨h1, h2⟩ := hr
    have hn : n < 15 := hp
    obtain ⟨b, q1, q2⟩ := loadRegs_core hm size r (a.reg n) h1 h2
    refine ⟨b.writeBack n wback r, ?_, ?_⟩
    · show a.ldm size n wback r = _
      unfold Arm.ldm
      rw [q1]
    · simp only [Act.run]
      show _ = if _ then ((a.core.loadAll (listed r) (a.reg n)).nextUnless _ size).set n (a.reg n + _) else _
      unfold Arm.writeBack
      by_cases hc : (wback && !r.getLsbD n) = true
      · rw [if_pos hc, if_pos hc]
        have hb : b.reg n = a.reg n := by
          have e1 : b.reg n = b.core.reg n := rfl
          rw [e1, q2]
          have e2 : ∀ c : Core, (c.nextUnless (r.getLsbD 15) size).reg n = c.reg n := by
            intro c
            unfold Core.nextUnless Core.next
            split
            · rfl
            · rw [core_reg_set, if_neg (by omega)]
          rw [e2, core_loadAll_reg hn]
          · rfl
          · intro k hk
            have := List.mem_filter.mp hk
            refine ⟨List.mem_range.mp this.1, ?_⟩
            rintro rfl
            simp only [this.2, Bool.not_true, Bool.and_false, Bool.false_eq_true] at hc
        rw [hb]
        show b.core.set n _ = _
        rw [q2]
      · rw [if_neg hc, if_neg hc, q2]
        rfl
  | stm n wback r =>
    obtain ⟨h1, h2⟩ := hr
    refine ⟨_, rfl, ?_⟩
    have hl : listed r = low15 r := by rw [listed_eq, h1]; simp
    have := storeAll_core (low15 r) (a.reg n) a hm (by rw [← hl]; exact h2)
    simp only [Act.run, hl]
    rw [next_core]
    unfold Arm.stm
    have hcount : count r = (low15 r).length := by rw [count_eq, h1]; simp
    cases wback
    · simp only [Bool.false_eq_true, if_false]
      rw [this]; rfl
    · simp only [if_true]
      show ((a.storeAll (low15 r) (a.reg n)).core.set n _).next size = _
      rw [this, hcount]; rfl
  | cps enable pri fault =>
    refine ⟨_, rfl, ?_⟩
    simp only [Act.run]
    have hr' : a.core.privileged = true ∨ (pri = false ∧ fault = false) := hr
    rw [next_core]
    unfold Arm.cps
    rcases hr' with h | ⟨rfl, rfl⟩
    · rw [h]
      cases pri <;> cases fault <;> rfl
    · rfl
  | mrs d sysm =>
    have hd : d < 15 := hp
    have hr' := special_right a sysm hr.1 hr.2
    refine ⟨a.afterWrite size d (a.core.special sysm.toNat), ?_, ?_⟩
    · show a.mrs size d sysm = _
      unfold Arm.mrs
      rw [hr']
    · exact afterWrite_core a size hd _
  | msr n mask sysm =>
    refine ⟨_, rfl, ?_⟩
    have hr' : a.core.writeSpecial mask.toNat sysm.toNat (a.core.reg n) = a.core := hr
    simp only [Act.run]
    rw [hr']
    rfl
  | plain => exact ⟨_, rfl, rfl⟩

/-- An object of an action, in a state that meets the conditions, does what the manual
says. -/
theorem does_right {act : Act} {i : Instr} (h : act.Of i) (hv : act.Valid) (hp : act.NoPc) {s : Machine} {c : Core} (hs : Shows s c)
    (hm : MemOK s.mem) (hr : act.Right s.mem c) : Does i act s c := by
  obtain ⟨a, rfl, rfl, ha⟩ := hs.arm
  rw [← ha] at hm hr
  obtain ⟨b, h1, h2⟩ := effect_right hv hp i.size a hm hr
  exact does_of h hv h1 h2

/-! ### Comparing results -/

theorem ends_unique {i : Instr} {s : Machine} {c c' : Core} (h : EndsIn i s c) (h' : EndsIn i s c') :
    (∀ k ∈ coreIndices, c.reg k = c'.reg k) ∧ c.mem = c'.mem := by
  obtain ⟨i1, s1, h1, h2⟩ := h
  obtain ⟨i2, s2, h3, h4⟩ := h'
  rw [h1] at h3
  cases h3
  refine ⟨fun k hk => ?_, h2.2.symm.trans h4.2⟩
  have := (h2.1 k hk).symm.trans (h4.1 k hk)
  simp only [Option.some.injEq] at this
  exact BitVec.eq_of_toNat_eq (by omega)

theorem core_mem {k : Nat} (h : k ≤ 18) : (k : Int) ∈ coreIndices := by
  rw [mem_core]; omega

theorem result_reg {c : Core} {size d : Nat} (h : d < 15) (v : Word) : (c.result size d v).reg d = keepBits d v := by
  rw [core_result h]
  unfold Core.next
  rw [core_reg_set, if_neg (by omega), core_reg_set, if_pos (.inl rfl)]

theorem keepBits_msb {d : Nat} (h : d < 16) (v : Word) : (keepBits d v).msb = v.msb := by
  unfold keepBits
  rw [if_neg (by omega), if_neg (by omega)]
  split
  · rw [BitVec.msb_and, show (0xfffffffc#32).msb = true by decide, Bool.and_true]
  · rfl

theorem keepBits_plain {d : Nat} (h : d < 17) (h' : d ≠ 13) (v : Word) : keepBits d v = v := by
  unfold keepBits
  rw [if_neg (by omega), if_neg (by omega), if_neg (by omega)]

theorem flags_reg16 (c : Core) (r : Word) (cf vf : Option Bool) :
    (c.flags true r cf vf).reg 16 = newFlags (c.reg 16) r.msb (r == 0#32) cf vf := rfl

theorem spoil_msb (x : Word) : (C17.spoil x).msb = false := by
  unfold C17.spoil
  cases h : x.msb
  · simp [h]
  · simp [h]

theorem next_reg (c : Core) (size : Nat) {k : Int} (h : k ≠ 15) : (c.next size).reg k = c.reg k := by
  unfold Core.next
  rw [core_reg_set, if_neg (by omega)]

/-- Every encoding that is decoded right is valid. -/
theorem encoding_valid (e : Enc) (he : e ∈ encodings) (w : Nat) (hw : e.Is w) (hx : ¬ Wrong e (field e.pat w)) :
    (e.act (field e.pat w)).Valid := by
  obtain ⟨c, hc, rfl⟩ := C38.caseOf he
  rw [← ((agrees c hc w hw.2.1 hw.2.2).1 hx).1]
  exact sound c hc w

/-- Decoding a valid word of a case. -/
theorem case_decodes {c : Case} (hc : c ∈ Case.all) {w : Nat} (h : c.enc.Is w) (hn : c.raises (field c.enc.pat w) = none)
    (rest : List Nat) (hr : ∀ b ∈ rest, b < 256) (a : Int) :
    ∃ i, (trees.decode (C38.bytesOf c.enc w ++ rest) a).1 = .ok i ∧ (c.act (field c.enc.pat w)).Of i ∧
      i.size = c.enc.pat.length / 8 := by
  obtain ⟨d, hd, hg⟩ := allGood.case _ hc
  rw [C38.trees_select hd hg h rest hr a]
  obtain ⟨i, h1, h2, h3, h4, h5, h6, _⟩ := (hg.correct w a h.2.1).2 hn
  refine ⟨i, h1, h6, ?_⟩
  unfold Instr.size
  rw [h4, hg.length]
  cases d.is32 <;> rfl

end Verif
