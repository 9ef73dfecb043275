import Verif.Props.C99

/-!
# C101: functions return with the registers they save
-/

namespace Verif
open Console Typed BS Thumb C70 C99

namespace C101

/-! ### Register lists -/

/-- The low registers of a list. -/
def low (list : Nat) : List Nat := (List.range 8).filter fun k => list.testBit k

/-- The list of `push {…, lr}` and `pop.w {…, lr}`: LR and low registers. -/
abbrev withLr (list : Nat) : BitVec 16 := Thumb.regs 0 1 list

/-- The list of `pop {…, pc}`. -/
abbrev withPc (list : Nat) : BitVec 16 := Thumb.regs 1 0 list

theorem lists_all : ∀ list : Fin 256, listed (withLr list) = low list ++ [14] ∧ listed (withPc list) = low list ++ [15] := by
  decide +kernel

theorem listed_lr {list : Nat} (h : list < 256) : listed (withLr list) = low list ++ [14] := (lists_all ⟨list, h⟩).1

theorem listed_pc {list : Nat} (h : list < 256) : listed (withPc list) = low list ++ [15] := (lists_all ⟨list, h⟩).2

theorem mem_low {list k : Nat} : k ∈ low list ↔ k < 8 ∧ list.testBit k = true := by
  unfold low
  rw [List.mem_filter, List.mem_range]

theorem bit_lr {list : Nat} (h : list < 256) {k : Nat} : (withLr list).getLsbD k = true ↔ k ∈ low list ∨ k = 14 := by
  have : k ∈ listed (withLr list) ↔ k ∈ low list ∨ k = 14 := by
    rw [listed_lr h, List.mem_append, List.mem_singleton]
  rw [← this, mem_listed]
  refine ⟨fun hk => ⟨?_, hk⟩, fun hk => hk.2⟩
  rcases Nat.lt_or_ge k 16 with h | h
  · exact h
  · rw [BitVec.getLsbD_of_ge _ _ h] at hk
    cases hk

theorem no_bit_lr {list : Nat} (h : list < 256) {k : Nat} (hk : k ∉ low list) (h14 : k ≠ 14) : (withLr list).getLsbD k = false := by
  rw [← Bool.not_eq_true, bit_lr h]
  rintro (q | q)
  · exact hk q
  · exact h14 q

/-- The bytes a frame with these registers and LR takes. -/
def room (list : Nat) : Nat := 4 * ((low list).length + 1)

theorem room_lr {list : Nat} (h : list < 256) : 4 * count (withLr list) = room list := by
  rw [← listed_length, listed_lr h]
  simp [room]

theorem room_pc {list : Nat} (h : list < 256) : 4 * count (withPc list) = room list := by
  rw [← listed_length, listed_pc h]
  simp [room]

theorem room_le (list : Nat) : room list ≤ 36 := by
  have : (low list).length ≤ 8 := Nat.le_trans (List.length_filter_le _ _) (by simp)
  unfold room
  omega

/-! ### Instructions at PC -/

theorem placed_congr {mem : List Region} {c d : Core} (hpc : d.reg 15 = c.reg 15) (hmem : d.mem = c.mem) {e : Enc} {w : Nat} (h : Placed mem c e w) :
    Placed mem d e w := by
  obtain ⟨h1, h2, h3, h4, h5, h6⟩ := h
  have hat : at_ d = at_ c := by
    unfold at_
    rw [hpc]
  exact ⟨h1, h2, by rw [hat]; exact h3, by rw [hat, hmem]; exact h4, h5, by rw [hat, hmem]; exact h6⟩

theorem stands_of {mem : List Region} {c : Core} {e : Enc} {w : Nat} (h : Placed mem c e w) {act : Act} (ha : e.act (field e.pat w) = act) (hn : act.NoPc)
    (hf : C72.Fine mem c act) : Stands mem c e w :=
  ⟨h.encoding, h.valid, h.inside, h.bytes, h.right, by rw [ha]; exact hn, by rw [ha]; exact hf, h.next⟩

theorem goes_step {mem : List Region} {c : Core} {e : Enc} {w : Nat} (h : Stands mem c e w) {act : Act} (ha : e.act (field e.pat w) = act) {k : Nat}
    (hl : e.pat.length / 8 = k) : Goes mem 1 c (act.run k c) := by
  have := Goes.more h .done
  rw [ha, hl] at this
  exact this

/-! ### Functions -/

/-- In this state a function is entered that begins with `push {…, lr}`, with room on the
stack. `list` has a bit for each low register in the list. -/
structure Entry (mem : List Region) (list : Nat) (c : Core) : Prop where
  small : list < 256
  code : ∃ w, Placed mem c Thumb.push w ∧ field Thumb.push.pat w 'm' = 1 ∧ field Thumb.push.pat w 'r' = list
  aligned : (c.reg 13).toNat % 4 = 0
  space : room list ≤ (c.reg 13).toNat
  stack : Words mem (c.reg 13 - w32 (room list)) (room list / 4)

/-- The state after the PUSH. -/
def inside (list : Nat) (c : Core) : Core := (Act.push (withLr list)).run 2 c

/-- A function has been entered in state `c`, has saved low registers and LR with
`push {…, lr}`, and is after `n` more instructions in state `d`, at its end: SP is as it was
after PUSH and the saved words are still there. -/
structure Frame (mem : List Region) (list n : Nat) (c d : Core) : Prop extends Entry mem list c where
  body : Goes mem n (inside list c) d
  sp : d.reg 13 = (inside list c).reg 13
  saved : ∀ y : Int, (d.reg 13).toNat ≤ y → y < (c.reg 13).toNat → d.mem y = (inside list c).mem y

/-- At this place stand `pop.w {…, lr}` and `bx lr`. -/
structure Exit (mem : List Region) (list : Nat) (d : Core) : Prop where
  pop : ∃ v, Placed mem d Thumb.popW v ∧ field Thumb.popW.pat v 'p' = 0 ∧ field Thumb.popW.pat v 'm' = 1 ∧ field Thumb.popW.pat v 'r' = list
  bx : ∃ u, Placed mem (d.set 15 (d.reg 15 + 4#32)) Thumb.bx u ∧ field Thumb.bx.pat u 'm' = 14

/-- The state after these two instructions. -/
def back (list : Nat) (d : Core) : Core := (Act.bx 14).run 2 ((Act.pop (withLr list)).run 4 d)

/-- The state `e` after a function that was entered in state `c` and was in state `d` before it
took its registers back. -/
structure Returned (list : Nat) (c d e : Core) : Prop where
  sp : e.reg 13 = c.reg 13
  saved : ∀ k : Nat, k < 8 → list.testBit k = true → e.reg k = c.reg k
  others : ∀ k : Int, k ≠ 13 → k ≠ 14 → k ≠ 15 → k ≠ 17 → (∀ j : Nat, k = j → ¬ (j < 8 ∧ list.testBit j = true)) → e.reg k = d.reg k
  mem : e.mem = d.mem

theorem w32_toNat {n : Nat} (h : n < 2 ^ 32) : (w32 n).toNat = n := by
  unfold w32
  rw [BitVec.toNat_ofNat, Nat.mod_eq_of_lt h]

theorem sp_sub {x : Word} {n : Nat} (h : n ≤ x.toNat) : (x - w32 n).toNat = x.toNat - n := by
  have := x.isLt
  rw [BitVec.toNat_sub, w32_toNat (by omega)]
  omega

variable {mem : List Region} {list n : Nat} {c d : Core}

theorem Entry.pushed (h : Entry mem list c) : C54.Pushed (withLr list) 2 c (inside list c) :=
  C54.pushed_run 2 (no_bit_lr h.small (fun q => by have := (mem_low.1 q).1; omega) (by decide)) h.aligned

theorem Entry.sp_eq (h : Entry mem list c) : (inside list c).reg 13 = c.reg 13 - w32 (room list) := by
  rw [h.pushed.sp, room_lr h.small]

theorem Entry.sp_nat (h : Entry mem list c) : ((inside list c).reg 13).toNat = (c.reg 13).toNat - room list := by
  rw [h.sp_eq, sp_sub h.space]

theorem Entry.goes (h : Entry mem list c) : Goes mem 1 c (inside list c) := by
  obtain ⟨w, h1, h2, h3⟩ := h.code
  have ha : Thumb.push.act (field Thumb.push.pat w) = .push (withLr list) := by
    show Act.push (Thumb.regs 0 (field Thumb.push.pat w 'm') (field Thumb.push.pat w 'r')) = _
    rw [h2, h3]
  have hw : C72.Fine mem c (Act.push (withLr list)) := by
    show Words mem (c.reg 13 - w32 (4 * count (withLr list))) (count (withLr list))
    have := h.stack
    rw [room_lr h.small, show count (withLr list) = room list / 4 by rw [← room_lr h.small]; omega]
    exact this
  exact goes_step (stands_of h1 ha trivial hw) ha (k := 2) rfl

/-- PUSH leaves the memory above SP alone. -/
theorem Entry.above (h : Entry mem list c) {y : Int} (hy : ((c.reg 13).toNat : Int) ≤ y) : (inside list c).mem y = c.mem y := by
  refine h.pushed.mem y fun j hj => ?_
  have h1 := h.sp_nat
  have h2 := h.space
  have h3 := room_le list
  have h4 := (c.reg 13).isLt
  have h5 := room_lr h.small
  have hx : ((inside list c).reg 13 + w32 (4 * j)).toNat = ((inside list c).reg 13).toNat + 4 * j := by
    rw [BitVec.toNat_add, w32_toNat (by omega)]
    omega
  omega

theorem Frame.goes (h : Frame mem list n c d) : Goes mem (n + 1) c d := by
  have := goes_trans h.toEntry.goes h.body
  rw [Nat.add_comm 1 n] at this
  exact this

/-- The words in the frame, at the end of the function. -/
theorem Frame.words (h : Frame mem list n c d) (j : Nat) (hj : j < (listed (withLr list)).length) :
    d.read (d.reg 13 + w32 (4 * j)) 4 = (c.reg (listed (withLr list))[j]).toNat := by
  have hp := h.pushed
  rw [← hp.words j hj, ← h.sp]
  unfold Core.read
  congr 1
  have hl : 4 * (j + 1) ≤ room list := by
    have := room_lr h.small
    rw [listed_length] at hj
    omega
  have h1 := h.sp_nat
  have h2 := h.space
  have h3 := room_le list
  have h4 := (c.reg 13).isLt
  rw [← h.sp] at h1
  have hx : (d.reg 13 + w32 (4 * j)).toNat = (d.reg 13).toNat + 4 * j := by
    rw [BitVec.toNat_add, w32_toNat (by omega)]
    omega
  rw [hx]
  exact flatRead_congr fun y a b => h.saved y (by omega) (by omega)

theorem Frame.stack_end (h : Frame mem list n c d) : Words mem (d.reg 13) (room list / 4) := by
  rw [h.sp, h.sp_eq]
  exact h.stack

/-- **C101.** A function that ends with `pop.w {…, lr}` of the registers it saved and `bx lr`
returns to the address in LR at its entry (bit 0 cleared), with SP, LR and the saved registers
as they were there. -/
theorem returns (h : Frame mem list n c d) (hx : Exit mem list d) :
    Goes mem (n + 3) c (back list d) ∧ Returned list c d (back list d) ∧ (back list d).reg 14 = c.reg 14 ∧
      (back list d).reg 15 = c.reg 14 &&& ~~~1#32 := by
  obtain ⟨⟨v, hpop, hp, hl, hr⟩, u, hbx, hm⟩ := hx
  have h13 : (withLr list).getLsbD 13 = false := no_bit_lr h.small (fun q => by have := (mem_low.1 q).1; omega) (by decide)
  have h15 : (withLr list).getLsbD 15 = false := no_bit_lr h.small (fun q => by have := (mem_low.1 q).1; omega) (by decide)
  obtain ⟨p1, p2, p3, p4, p5⟩ := C54.popped_run (d := d) 4 h13 h15 h.aligned (by rw [h.sp, h.pushed.sp]) h.words
  have ha : Thumb.popW.act (field Thumb.popW.pat v) = .pop (withLr list) := by
    show Act.pop (Thumb.regs (field Thumb.popW.pat v 'p') (field Thumb.popW.pat v 'm') (field Thumb.popW.pat v 'r')) = _
    rw [hp, hl, hr]
  have hf : C72.Fine mem d (Act.pop (withLr list)) := by
    refine ⟨?_, fun q => by rw [h15] at q; cases q⟩
    have := h.stack_end
    rw [show count (withLr list) = room list / 4 by rw [← room_lr h.small]; omega]
    exact this
  have g1 := goes_step (stands_of hpop ha trivial hf) ha (k := 4) rfl
  unfold back
  generalize (Act.pop (withLr list)).run 4 d = e at *
  have hb : Thumb.bx.act (field Thumb.bx.pat u) = .bx 14 := by
    show Act.bx (field Thumb.bx.pat u 'm') = _
    rw [hm]
  have g2 := goes_step (stands_of (placed_congr (c := d.set 15 (d.reg 15 + 4#32)) (d := e) (by
    rw [p3, core_reg_set, if_pos (.inl rfl)]
    exact (keepBits_plain (d := 15) (by decide) (by decide) _).symm) p4 hbx) hb (show 14 < 15 by decide) trivial) hb (k := 2) rfl
  have g := goes_trans h.goes (goes_trans g1 g2)
  refine ⟨g, ?_⟩
  have reg : ∀ k : Int, k ≠ 15 → ((Act.bx 14).run 2 e).reg k = e.reg k := fun k hk => by
    show (e.set 15 _).reg k = _
    rw [core_reg_set, if_neg (by omega)]
  have e14 : e.reg 14 = c.reg 14 := p1 14 (by decide) ((bit_lr h.small).2 (.inr rfl))
  refine ⟨⟨by rw [reg _ (by decide), p2], fun k hk hb => ?_, fun k k1 k2 k3 k4 k5 => ?_, p4⟩, by rw [reg _ (by decide), e14], ?_⟩
  · rw [reg _ (by omega)]
    exact p1 k (by omega) ((bit_lr h.small).2 (.inl (mem_low.2 ⟨hk, hb⟩)))
  · rw [reg _ k3]
    exact p5 k k1 k3 k4 fun j hj => no_bit_lr h.small (fun q => k5 j hj (mem_low.1 q)) (by omega)
  · show (e.set 15 (e.rd 14 &&& ~~~1#32)).reg 15 = _
    rw [core_reg_set, if_pos (.inl rfl), show e.rd 14 = e.reg 14 from rfl, e14]
    exact keepBits_plain (d := 15) (by decide) (by decide) _

/-! ### Calls -/

/-- A call in state `b`, with BL or with BLX of a register other than LR: the state `c` at the
called function and the address of the instruction after the call. -/
inductive Calls (mem : List Region) : Core → Core → Word → Prop where
  | bl {b : Core} {w : Nat} : Stands mem b Thumb.bl w → Calls mem b ((Thumb.bl.act (field Thumb.bl.pat w)).run 4 b) (b.reg 15 + 4#32)
  | blx {b : Core} {w : Nat} : Stands mem b Thumb.blx w → Calls mem b ((Thumb.blx.act (field Thumb.blx.pat w)).run 2 b) (b.reg 15 + 2#32)

theorem linked (b : Core) (l x : Word) : ((b.set 14 l).set 15 x).reg 14 = l ∧ ((b.set 14 l).set 15 x).mem = b.mem ∧
    ∀ k : Int, k ≠ 14 → k ≠ 15 → ((b.set 14 l).set 15 x).reg k = b.reg k := by
  refine ⟨?_, rfl, fun k h1 h2 => ?_⟩
  · rw [core_reg_set, if_neg (by omega), core_reg_set, if_pos (.inl rfl)]
    exact keepBits_plain (d := 14) (by decide) (by decide) _
  · rw [core_reg_set, if_neg (by omega), core_reg_set, if_neg (by omega)]

theorem Calls.spec {b : Core} {ret : Word} (h : Calls mem b c ret) : Goes mem 1 b c ∧ c.reg 14 = ret ||| 1#32 ∧ c.mem = b.mem ∧
    ∀ k : Int, k ≠ 14 → k ≠ 15 → c.reg k = b.reg k := by
  cases h with
  | bl hs =>
    refine ⟨goes_step hs rfl (k := 4) rfl, ?_⟩
    exact linked b (b.rd 15 ||| 1#32) _
  | blx hs =>
    refine ⟨goes_step hs rfl (k := 2) rfl, ?_⟩
    have : b.reg 15 + 2#32 = b.rd 15 - 2#32 := by
      show _ = b.reg 15 + 4#32 - 2#32
      bv_omega
    rw [this]
    exact linked b ((b.rd 15 - 2#32) ||| 1#32) _

theorem Calls.even {b : Core} {ret : Word} (h : Calls mem b c ret) (heven : (b.reg 15).toNat % 2 = 0) : ret.toNat % 2 = 0 := by
  cases h with
  | bl _ =>
    rw [BitVec.toNat_add]
    show ((b.reg 15).toNat + 4) % 2 ^ 32 % 2 = 0
    omega
  | blx _ =>
    rw [BitVec.toNat_add]
    show ((b.reg 15).toNat + 2) % 2 ^ 32 % 2 = 0
    omega

theorem or_clear {x : Word} (h : x.toNat % 2 = 0) : (x ||| 1#32) &&& ~~~1#32 = x := by
  apply BitVec.eq_of_getLsbD_eq
  intro k hk
  simp only [BitVec.getLsbD_and, BitVec.getLsbD_or, BitVec.getLsbD_not]
  by_cases h0 : k = 0
  · subst h0
    have : x.getLsbD 0 = false := by
      rw [BitVec.getLsbD, Nat.testBit_zero, decide_eq_false_iff_not]
      omega
    rw [this]
    decide
  · have : (1#32).getLsbD k = false := by rw [BitVec.getLsbD_one]; simp; omega
    rw [this]
    simp [hk]

/-- **C101.** A call of such a function: it goes on at the instruction after the call, with SP and
the saved registers as they were before the call. -/
theorem call_returns {b : Core} {ret : Word} (hc : Calls mem b c ret) (heven : (b.reg 15).toNat % 2 = 0) (h : Frame mem list n c d) (hx : Exit mem list d) :
    Goes mem (n + 4) b (back list d) ∧ Returned list b d (back list d) ∧ (back list d).reg 15 = ret := by
  obtain ⟨h1, h2, h3, h4⟩ := hc.spec
  obtain ⟨g1, ⟨r1, r2, r3, r4⟩, -, g4⟩ := returns h hx
  refine ⟨?_, ⟨by rw [r1, h4 _ (by decide) (by decide)], fun k hk hb => by rw [r2 k hk hb, h4 _ (by omega) (by omega)], r3, r4⟩, ?_⟩
  · have := goes_trans h1 g1
    rw [Nat.add_comm 1] at this
    exact this
  · rw [g4, h2, or_clear (hc.even heven)]

/-! ### Calls in calls -/

/-- SP and the memory from SP upwards are the same. -/
structure Keeps (c d : Core) : Prop where
  sp : d.reg 13 = c.reg 13
  above : ∀ y : Int, (c.reg 13).toNat ≤ y → d.mem y = c.mem y

/-- Code in which calls may stand, of functions that are of this kind themselves, to any depth.
The other instructions must keep SP and the memory from SP upwards. -/
inductive Tidy (mem : List Region) : Nat → Core → Core → Prop where
  | done {c : Core} : Tidy mem 0 c c
  | step {n : Nat} {c d : Core} {e : Enc} {w : Nat} : Stands mem c e w → Keeps c ((e.act (field e.pat w)).run (e.pat.length / 8) c) →
      Tidy mem n ((e.act (field e.pat w)).run (e.pat.length / 8) c) d → Tidy mem (n + 1) c d
  | call {n k list : Nat} {b c d e : Core} {ret : Word} : Calls mem b c ret → Entry mem list c → Tidy mem n (inside list c) d → Exit mem list d →
      Tidy mem k (back list d) e → Tidy mem (n + 4 + k) b e

theorem frame_of (h : Entry mem list c) (hg : Goes mem n (inside list c) d) (hk : Keeps (inside list c) d) : Frame mem list n c d :=
  { h with
    body := hg
    sp := hk.sp
    saved := fun y h1 _ => hk.above y (by rw [← hk.sp]; exact h1) }

/-- **C101.** Calls nest: code with calls to any depth runs, and leaves SP and the memory from SP
upwards alone. -/
theorem nested {n : Nat} {c d : Core} (h : Tidy mem n c d) : Goes mem n c d ∧ Keeps c d := by
  induction h with
  | done => exact ⟨.done, rfl, fun _ _ => rfl⟩
  | step h1 h2 _ ih =>
    exact ⟨.more h1 ih.1, ih.2.sp.trans h2.sp, fun y hy => (ih.2.above y (by rw [h2.sp]; exact hy)).trans (h2.above y hy)⟩
  | @call n k list b c d e ret h1 h2 h3 h4 h5 ih1 ih2 =>
    obtain ⟨c1, c2, c3, c4⟩ := h1.spec
    have hf := frame_of h2 ih1.1 ih1.2
    obtain ⟨g1, ⟨r1, -, -, r4⟩, -⟩ := returns hf h4
    have g := goes_trans (goes_trans c1 g1) ih2.1
    rw [Nat.add_comm 1] at g
    have hsp : c.reg 13 = b.reg 13 := c4 13 (by decide) (by decide)
    refine ⟨g, ?_, fun y hy => ?_⟩
    · rw [ih2.2.sp, r1, hsp]
    · rw [ih2.2.above y (by rw [r1, hsp]; exact hy), r4]
      have h6 := h2.sp_nat
      rw [ih1.2.above y (by rw [hsp] at h6; omega), h2.above (by rw [hsp]; exact hy), c3]

/-! ### In the console -/

/-- **C101.** The same with step commands: after the call, the function and everything it calls, PC
is at the instruction after the call. Missing from the full claim: calls backwards with BL,
which go elsewhere (C50), and BLX of LR (C51). -/
theorem session_partial (python : Python) {w : World} {b : Core} {ret : Word} (hs : Shows w.cpu b) (hm : MemOK w.cpu.mem) (hc : Calls w.cpu.mem b c ret)
    (heven : (b.reg 15).toNat % 2 = 0) (he : Entry w.cpu.mem list c) (hb : Tidy w.cpu.mem n (inside list c) d) (hx : Exit w.cpu.mem list d)
    {cmds : List Str} (hl : cmds.length = n + 4) (hcmds : ∀ cmd ∈ cmds, ∃ name ∈ stepNames, ∃ args, Says cmd name args) :
    ∃ s' ls, processCommands python cmds w = (.ok (), ⟨s', w.out ++ ls⟩) ∧ ls.length = n + 4 ∧ s'.regs (some 15) = some (ret.toNat : Int) ∧
      s'.regs (some 13) = w.cpu.regs (some 13) ∧ (∀ k : Nat, k < 8 → list.testBit k = true → s'.regs (some k) = w.cpu.regs (some k)) ∧
      (∀ k : Nat, k < 8 → list.testBit k = false → s'.regs (some k) = some ((d.reg k).toNat : Int)) ∧
      ∀ y : Int, (b.reg 13).toNat ≤ y → flat s'.mem y = flat w.cpu.mem y := by
  have hn := nested hb
  obtain ⟨g1, ⟨r1, r2, r3, r4⟩, g3⟩ := call_returns hc heven (frame_of he hn.1 hn.2) hx
  obtain ⟨s', ls, e1, e2, e3, -⟩ := steps_partial python g1 (w := w) (cmds := cmds) rfl hs hm hl hcmds
  have core : ∀ k : Nat, k < 8 → (k : Int) ∈ coreIndices := fun k hk => core_mem (by omega)
  refine ⟨s', ls, e1, e2, ?_, ?_, fun k hk hb => ?_, fun k hk hb => ?_, fun y hy => ?_⟩
  · rw [e3.1 15 (by decide), g3]
  · rw [e3.1 13 (by decide), hs.1 13 (by decide), r1]
  · rw [e3.1 k (core k hk), hs.1 k (core k hk), r2 k hk hb]
  · rw [e3.1 k (core k hk), r3 k (by omega) (by omega) (by omega) (by omega) (fun j hj q => by
      rw [show j = k by omega, hb] at q
      exact absurd q.2 (by decide))]
  · obtain ⟨-, -, c3, c4⟩ := hc.spec
    have hsp : c.reg 13 = b.reg 13 := c4 13 (by decide) (by decide)
    have h6 := he.sp_nat
    rw [e3.2, r4, hs.2, hn.2.above y (by rw [hsp] at h6; omega), he.above (by rw [hsp]; exact hy), c3]

/-! ### Returning with `pop {…, pc}` -/

/-- **C101.** A function that ends with `pop {…, pc}` instead: SP and the saved registers are as
they were at its entry, but PC is LR with bit 0, which the manual clears. -/
theorem pop_pc_partial (python : Python) {w : World} (hs : Shows w.cpu c) (hm : MemOK w.cpu.mem) (h : Frame w.cpu.mem list n c d) {v : Nat}
    (hpop : Placed w.cpu.mem d Thumb.pop v) (hp : field Thumb.pop.pat v 'p' = 1) (hr : field Thumb.pop.pat v 'r' = list)
    {cmds : List Str} (hl : cmds.length = n + 2) (hcmds : ∀ cmd ∈ cmds, ∃ name ∈ stepNames, ∃ args, Says cmd name args) :
    ∃ s' ls e, processCommands python cmds w = (.ok (), ⟨s', w.out ++ ls⟩) ∧ ls.length = n + 2 ∧ Shows s' e ∧ MemOK s'.mem ∧ Returned list c d e ∧
      e.reg 14 = d.reg 14 ∧ e.reg 15 = c.reg 14 := by
  obtain ⟨init, last, rfl⟩ : ∃ init last, cmds = init ++ [last] := by
    rcases List.eq_nil_or_concat cmds with h | ⟨a, b, h⟩
    · rw [h] at hl
      simp at hl
    · exact ⟨a, b, by rw [h, List.concat_eq_append]⟩
  obtain ⟨s1, ls, e1, e2, e3, e4, e5⟩ := steps_well python h.goes (w := w) (cmds := init) rfl hs hm (by simp at hl; omega)
    (fun cmd hc => hcmds cmd (List.mem_append_left _ hc))
  obtain ⟨name, hname, args, hcmd⟩ := hcmds last (by simp)
  have hpl : Placed s1.mem d Thumb.pop v := by
    obtain ⟨h1, h2, h3, h4, h5, h6⟩ := hpop
    refine ⟨h1, h2, (e5 _ _).2 h3, h4, h5, fun hl => ?_⟩
    cases h6 hl with
    | last a => exact .last fun b => a ((e5 _ _).1 b)
    | long a b c => exact .long ((e5 _ _).2 a) b c
    | short a b c d e => exact .short ((e5 _ _).2 a) b c d e
  obtain ⟨i, text, -, f1, f2, -, -, f4, -⟩ := step_executes python (w := ⟨s1, w.out ++ ls⟩) e3 e4 hname hcmd hpl
  have ha : Thumb.pop.act (field Thumb.pop.pat v) = .pop (withPc list) := by
    show Act.pop (Thumb.regs (field Thumb.pop.pat v 'p') 0 (field Thumb.pop.pat v 'r')) = _
    rw [hp, hr]
  rw [ha] at f1 f2
  have h15 : (withPc list).getLsbD 15 = true := (mem_listed.1 (by rw [listed_pc h.small]; simp)).2
  have hcount : count (withPc list) = (low list).length + 1 := by
    rw [← listed_length, listed_pc h.small]
    simp
  have hw : Words s1.mem (d.reg 13) (count (withPc list)) := fun j hj => (e5 _ _).2 (h.stack_end j (by
    have := room_pc h.small
    omega))
  obtain ⟨j, s2, k1, k2⟩ := C55.pop_pc f1 e3 e4 h15 hw
  have k3 : MemOK s2.mem := by
    obtain ⟨a, rfl, -, -⟩ := e3.arm
    have q := eval_exact f1 f2 a
    rw [k1] at q
    have : s2.mem = a.mem := by
      have q2 := congrArg (fun p => p.2.mem) q
      have q3 := effect_mem (act := .pop (withPc list)) (fun h => h) i.size a
      generalize (Act.pop (withPc list)).effect i.size a = o at q2 q3
      obtain ⟨r, b⟩ := o
      rw [show s2.mem = _ from q2]
      cases r with
      | ok _ => exact q3
      | error _ => exact q3
    rw [this]
    exact e4
  refine ⟨s2, ls ++ [stepLine (at_ d) text], _, ?_, by simp [e2], k2, k3, ?_⟩
  · rw [C67.processCommands_append, e1]
    simp only
    show (processCommand python last >>= fun _ => processCommands python []) _ = _
    rw [ConM.bind_ok (f4 j s2 k1), List.append_assoc]
    rfl
  · have hlow : (listed (withPc list)).dropLast = low list := by rw [listed_pc h.small, List.dropLast_concat]
    rw [hlow, hcount, Nat.add_sub_cancel]
    have hreg : ∀ k : Int, k ≠ 13 → k ≠ 15 → k ≠ 17 → (∀ j : Nat, k = j → j ∉ low list) →
        (((d.set 13 (d.reg 13 + w32 (4 * ((low list).length + 1)))).loadAll (low list) (d.reg 13)).set 15
          (w32 (d.read (d.reg 13 + w32 (4 * (low list).length)) 4))).reg k = d.reg k := fun k k1 k2 k3 k4 => by
      rw [core_reg_set, if_neg (by omega), loadAll_other _ _ _ _ (fun j hj => by
        have := (mem_low.1 hj).1
        exact ⟨by omega, fun q => k4 j q.symm hj, by omega⟩), core_reg_set, if_neg (by omega)]
    have words := h.words
    simp only [listed_lr h.small] at words
    refine ⟨⟨?_, fun k hk hb => ?_, fun k k1 k2 k3 k4 k5 => hreg k k1 k3 k4 fun j hj q => k5 j hj (mem_low.1 q), ?_⟩, ?_, ?_⟩
    · rw [core_reg_set, if_neg (by omega), loadAll_other _ _ _ _ (fun j hj => by
        have := (mem_low.1 hj).1
        omega), core_reg_set, if_pos (.inl rfl), h.sp, h.sp_eq,
        show 4 * ((low list).length + 1) = room list from rfl, BitVec.sub_add_cancel]
      exact keep_aligned h.aligned
    · have hmem := mem_low.2 ⟨hk, hb⟩
      obtain ⟨j, hj, rfl⟩ := List.getElem_of_mem hmem
      have := words j (by simp; omega)
      rw [List.getElem_append_left hj] at this
      rw [core_reg_set, if_neg (by omega), loadAll_reg (low list) _ _ (List.Pairwise.filter _ List.nodup_range) (fun k q => by
        have := (mem_low.1 q).1
        omega) j hj, keepBits_plain (by omega) (by omega),
        show (d.set 13 (d.reg 13 + w32 (4 * ((low list).length + 1)))).read (d.reg 13 + w32 (4 * j)) 4 = d.read (d.reg 13 + w32 (4 * j)) 4 from rfl, this]
      unfold w32
      rw [BitVec.ofNat_toNat, BitVec.setWidth_eq]
    · show ((d.set 13 (d.reg 13 + w32 (4 * ((low list).length + 1)))).loadAll (low list) (d.reg 13)).mem = _
      rw [core_loadAll_mem]
      rfl
    · exact hreg 14 (by decide) (by decide) (by decide) fun j hj q => by
        have := (mem_low.1 q).1
        omega
    · have := words (low list).length (by simp)
      rw [List.getElem_append_right (Nat.le_refl _)] at this
      rw [core_reg_set, if_pos (.inl rfl), this]
      simp only [Nat.sub_self, List.getElem_cons_zero]
      unfold w32
      rw [BitVec.ofNat_toNat, BitVec.setWidth_eq]
      exact keepBits_plain (d := 15) (by decide) (by decide) _

/-! ### An example -/

theorem placed_short {c : Core} {x : Nat} {bs : List Nat} (h : Lies c.mem x bs) (hin : Inside mem x bs.length) (hx : x % 2 = 0)
    {j : Nat} (hpc : (c.reg 15).toNat = x + j) (hj : j % 2 = 0) {e : Enc} {a b a' b' : Nat} (ha : bs[j]? = some a) (hb : bs[j + 1]? = some b)
    (ha' : bs[j + 2]? = some a') (hb' : bs[j + 3]? = some b') (he : e ∈ encodings) (hl : e.pat.length = 16) (hi : e.Is (a + 256 * b))
    (hw : ¬ Wrong e (field e.pat (a + 256 * b)))
    (hn : (∃ e' ∈ encodings, e'.pat.length = 16 ∧ e'.Is (a' + 256 * b')) ∨ 0xe800 ≤ a' + 256 * b') : Placed mem c e (a + 256 * b) := by
  have hat : at_ c = ((x + j : Nat) : Int) := by
    unfold at_
    omega
  have hlen := (List.getElem?_eq_some_iff.1 hb').1
  have h2 := lies_halfword h (j := j + 2) ha' hb'
  have hr : flatRead c.mem (at_ c + 2) 2 = some (a' + 256 * b') := by
    rw [hat, show ((x + j : Nat) : Int) + 2 = ((x + (j + 2) : Nat) : Int) by omega]
    exact h2
  have hi4 : Inside mem (at_ c) 4 := by
    rw [hat]
    exact inside_part hin (by omega) (by omega)
  refine ⟨he, hi, ?_, ?_, hw, fun _ => ?_⟩
  · rw [hat, hl]
    exact inside_part hin (by omega) (by omega)
  · rw [hat, hl]
    exact lies_halfword h ha hb
  · rcases hn with ⟨e', he', hl', hi'⟩ | hlong
    · exact .short (h := a' + 256 * b') (e := e') hi4 hr he' hl' hi'
    · exact .long (h := a' + 256 * b') hi4 hr hlong

theorem placed_long {c : Core} {x : Nat} {bs : List Nat} (h : Lies c.mem x bs) (hin : Inside mem x bs.length) (hx : x % 2 = 0)
    {j : Nat} (hpc : (c.reg 15).toNat = x + j) (hj : j % 2 = 0) {e : Enc} {a b a' b' : Nat} (ha : bs[j]? = some a) (hb : bs[j + 1]? = some b)
    (ha' : bs[j + 2]? = some a') (hb' : bs[j + 3]? = some b') (he : e ∈ encodings) (hl : e.pat.length = 32)
    (hi : e.Is (a + 256 * (b + 256 * (a' + 256 * b')))) (hw : ¬ Wrong e (field e.pat (a + 256 * (b + 256 * (a' + 256 * b'))))) :
    Placed mem c e (a + 256 * (b + 256 * (a' + 256 * b'))) := by
  have hat : at_ c = ((x + j : Nat) : Int) := by
    unfold at_
    omega
  have hlen := (List.getElem?_eq_some_iff.1 hb').1
  have h0 := h j (by omega)
  have h1 := h (j + 1) (by omega)
  have h2 := h (j + 2) (by omega)
  have h3 := h (j + 3) (by omega)
  rw [ha] at h0
  rw [hb] at h1
  rw [ha'] at h2
  rw [hb'] at h3
  have e1 : ((x + j : Nat) : Int) + 1 = ((x + (j + 1) : Nat) : Int) := by omega
  have e2 : ((x + (j + 1) : Nat) : Int) + 1 = ((x + (j + 2) : Nat) : Int) := by omega
  have e3 : ((x + (j + 2) : Nat) : Int) + 1 = ((x + (j + 3) : Nat) : Int) := by omega
  refine ⟨he, hi, ?_, ?_, hw, fun q => by omega⟩
  · rw [hat, hl]
    exact inside_part hin (by omega) (by omega)
  · rw [hat, hl]
    simp only [flatRead, h0, e1, h1, e2, h2, e3, h3, Nat.mul_zero, Nat.add_zero]

/-- `bl f; nop; nop; f: push {r4, lr}; movs r4, #7; pop.w {r4, lr}; bx lr; nop`. -/
def program : List Nat := [0x00, 0xf0, 0x02, 0xf8, 0x00, 0xbf, 0x00, 0xbf, 0x10, 0xb5, 0x07, 0x24, 0xbd, 0xe8, 0x10, 0x40, 0x70, 0x47, 0x00, 0xbf]

/-- The program and a stack after it. -/
def programMem : List Region := [⟨0, 0x27, program ++ List.replicate 20 0⟩]

theorem nop_is : ∃ e' ∈ encodings, e'.pat.length = 16 ∧ e'.Is (0x00 + 256 * 0xbf) := ⟨Thumb.nop, by simp [encodings], rfl, by decide, by decide, by decide⟩

/-- Five steps: r4 is 7 in the function, and afterwards what it was. -/
example (python : Python) {s : Machine} {b : Core} (hs : Shows s b) (hm : s.mem = programMem) (hpc : s.regs (some 15) = some 0)
    (hsp : s.regs (some 13) = some 0x28) (h4 : s.regs (some 4) = some 0x1234) :
    ∃ s' ls, processCommands python (List.replicate 5 (c! "step")) ⟨s, []⟩ = (.ok (), ⟨s', ls⟩) ∧ s'.regs (some 15) = some 4 ∧
      s'.regs (some 13) = some 0x28 ∧ s'.regs (some 4) = some 0x1234 := by
  have hok : MemOK s.mem := by
    rw [hm]
    refine ⟨?_, List.pairwise_singleton _ _⟩
    intro m h
    simp only [programMem, List.mem_cons, List.not_mem_nil, or_false] at h
    subst h
    exact ⟨by decide, by decide⟩
  have hin : Inside s.mem ((0 : Nat) : Int) 40 := by
    rw [hm]
    exact ⟨_, List.mem_cons_self, by decide, by decide⟩
  have hcode : Inside s.mem ((0 : Nat) : Int) program.length := inside_part hin (by decide) (by decide)
  have reg : ∀ k ∈ coreIndices, ∀ {v : Nat}, s.regs (some k) = some (v : Int) → (b.reg k).toNat = v := fun k hk v h => by
    rw [hs.1 k hk] at h
    exact Int.ofNat.inj (Option.some.inj h)
  have b15 := reg 15 (by decide) (v := 0) hpc
  have b13 := reg 13 (by decide) (v := 0x28) hsp
  have lies : Lies b.mem 0 program := by
    rw [← hs.2, hm]
    unfold Lies
    decide +kernel
  -- the call
  have p0 : Placed s.mem b Thumb.bl 0xf802f000 := placed_long lies hcode rfl (j := 0) b15 rfl (e := Thumb.bl) (a := 0x00) (b := 0xf0) (a' := 0x02) (b' := 0xf8)
    rfl rfl rfl rfl (by simp [encodings]) rfl ⟨by decide, by decide, by decide⟩ (by unfold Wrong; decide)
  have hc := Calls.bl (stands_of p0 rfl trivial trivial)
  have ha : Thumb.bl.act (field Thumb.bl.pat 0xf802f000) = .bl 4#32 := by decide +kernel
  rw [ha] at hc
  obtain ⟨-, -, c3, c4⟩ := hc.spec
  have c15 : (((Act.bl 4#32).run 4 b).reg 15).toNat = 0 + 8 := by
    show (((b.set 14 _).set 15 (b.reg 15 + 4#32 + 4#32)).reg 15).toNat = 8
    rw [core_reg_set, if_pos (.inl rfl), show keepBits 15 _ = _ from keepBits_plain (d := 15) (by decide) (by decide) _,
      show b.reg 15 = 0#32 from BitVec.eq_of_toNat_eq b15]
    rfl
  generalize (Act.bl 4#32).run 4 b = c at *
  have c13 : (c.reg 13).toNat = 0x28 := by rw [c4 13 (by decide) (by decide), b13]
  have clies : Lies c.mem 0 program := by rw [c3]; exact lies
  -- the function
  have p1 : Placed s.mem c Thumb.push 0xb510 := placed_short clies hcode rfl (j := 8) c15 rfl (e := Thumb.push) (a := 0x10) (b := 0xb5) (a' := 0x07) (b' := 0x24)
    rfl rfl rfl rfl (by simp [encodings]) rfl ⟨by decide, by decide, by decide⟩ (not_wrong (by decide) _)
    (.inl ⟨Thumb.movsImm, by simp [encodings], rfl, by decide, by decide, by decide⟩)
  have hroom : room 0x10 = 8 := by decide
  have hentry : Entry s.mem 0x10 c := by
    refine ⟨by decide, ⟨_, p1, by decide +kernel, by decide +kernel⟩, by rw [c13], by rw [c13, hroom]; decide, fun j hj => ?_⟩
    rw [hroom] at hj ⊢
    rw [show c.reg 13 = 0x28#32 from BitVec.eq_of_toNat_eq c13]
    match j, hj with
    | 0, _ => exact inside_part hin (by decide) (by decide)
    | 1, _ => exact inside_part hin (by decide) (by decide)
  have d15 : ((inside 0x10 c).reg 15).toNat = 0 + 10 := by
    rw [hentry.pushed.pc, show c.reg 15 = 8#32 from BitVec.eq_of_toNat_eq c15]
    rfl
  have d13 := hentry.sp_nat
  rw [c13, hroom] at d13
  have dlies : Lies (inside 0x10 c).mem 0 program := fun j hj => by
    rw [hentry.pushed.mem, clies j hj]
    intro i hi
    have : count (withLr 0x10) = 2 := by decide
    have hx : ((inside 0x10 c).reg 13 + w32 (4 * i)).toNat = 0x20 + 4 * i := by
      rw [BitVec.toNat_add, d13, w32_toNat (by omega)]
      omega
    have : program.length = 20 := rfl
    omega
  -- its body
  have p2 : Placed s.mem (inside 0x10 c) Thumb.movsImm 0x2407 := placed_short dlies hcode rfl (j := 10) d15 rfl (e := Thumb.movsImm) (a := 0x07) (b := 0x24)
    (a' := 0xbd) (b' := 0xe8) rfl rfl rfl rfl (by simp [encodings]) rfl ⟨by decide, by decide, by decide⟩ (not_wrong (by decide) _) (.inr (by decide))
  have ha2 : Thumb.movsImm.act (field Thumb.movsImm.pat 0x2407) = .mov false true 4 (.imm (w32 7)) none := by decide +kernel
  have hst : Stands s.mem (inside 0x10 c) Thumb.movsImm 0x2407 := stands_of p2 ha2 ⟨by decide, trivial⟩ (fun _ => rfl)
  have hrun : ∀ k : Int, k ≠ 15 → k ≠ 4 → k ≠ 16 → ((Act.mov false true 4 (.imm (w32 7)) none).run 2 (inside 0x10 c)).reg k = (inside 0x10 c).reg k :=
    fun k h1 h2 h3 => by
      show (((((inside 0x10 c).flags true (w32 7) none none).set 4 (w32 7)).next 2)).reg k = _
      rw [next_reg _ _ h1, core_reg_set, if_neg (by omega), flags_reg _ _ _ _ _ h3]
  have e15 : (((Act.mov false true 4 (.imm (w32 7)) none).run 2 (inside 0x10 c)).reg 15).toNat = 0 + 12 := by
    show ((((((inside 0x10 c).flags true (w32 7) none none).set 4 (w32 7)).next 2)).reg 15).toNat = _
    rw [next_pc, core_reg_set, if_neg (by omega), flags_reg _ _ _ _ _ (by decide), show (inside 0x10 c).reg 15 = 10#32 from BitVec.eq_of_toNat_eq d15]
    rfl
  have hbody : Tidy s.mem 1 (inside 0x10 c) ((Act.mov false true 4 (.imm (w32 7)) none).run 2 (inside 0x10 c)) := by
    have : Thumb.movsImm.pat.length / 8 = 2 := rfl
    refine .step hst ?_ ?_
    · rw [ha2, this]
      exact ⟨hrun 13 (by decide) (by decide) (by decide), fun _ _ => rfl⟩
    · rw [ha2, this]
      exact .done
  have elies : Lies ((Act.mov false true 4 (.imm (w32 7)) none).run 2 (inside 0x10 c)).mem 0 program := dlies
  generalize (Act.mov false true 4 (.imm (w32 7)) none).run 2 (inside 0x10 c) = e at *
  have p3 : Placed s.mem e Thumb.popW 0x4010e8bd := placed_long elies hcode rfl (j := 12) e15 rfl (e := Thumb.popW) (a := 0xbd) (b := 0xe8) (a' := 0x10) (b' := 0x40)
    rfl rfl rfl rfl (by simp [encodings]) rfl ⟨by decide, by decide, by decide⟩ (not_wrong (by decide) _)
  have p4 : Placed s.mem (e.set 15 (e.reg 15 + 4#32)) Thumb.bx 0x4770 := placed_short (c := e.set 15 (e.reg 15 + 4#32)) elies hcode rfl (j := 16) (by
      rw [core_reg_set, if_pos (.inl rfl), show keepBits 15 _ = _ from keepBits_plain (d := 15) (by decide) (by decide) _,
        show e.reg 15 = 12#32 from BitVec.eq_of_toNat_eq e15]
      rfl) rfl (e := Thumb.bx) (a := 0x70) (b := 0x47) (a' := 0x00) (b' := 0xbf)
    rfl rfl rfl rfl (by simp [encodings]) rfl ⟨by decide, by decide, by decide⟩ (not_wrong (by decide) _) (.inl nop_is)
  have hexit : Exit s.mem 0x10 e := ⟨⟨_, p3, by decide +kernel, by decide +kernel, by decide +kernel⟩, _, p4, by decide +kernel⟩
  obtain ⟨s', ls, r1, -, r2, r3, r4, -⟩ := session_partial python (w := ⟨s, []⟩) hs hok hc (by rw [b15]) hentry hbody hexit
    (cmds := List.replicate 5 (c! "step")) (by decide) (fun cmd h => by
      rw [List.eq_of_mem_replicate h]
      exact ⟨_, by decide, _, says_step⟩)
  refine ⟨s', ls, by simpa using r1, ?_, by rw [r3, hsp], by rw [← h4]; exact r4 4 (by decide) (by decide)⟩
  rw [r2, show b.reg 15 = 0#32 from BitVec.eq_of_toNat_eq b15]
  rfl

end C101
end Verif
