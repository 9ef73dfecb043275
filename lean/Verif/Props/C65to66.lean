import Verif.Lemmas.Line
import Verif.Props.C72to73

/-!
# C65, C66 and C74: what the text of an instruction says

The text of a formatted instruction is read back by `Reader.line` (`Spec/Assembly.lean`), which
does not use the model; `Written` there is the syntax of the manual.
-/

namespace Verif
open BS Thumb Handler

namespace C74

theorem barrier_only : ∀ c ∈ Case.all, ∀ w, c.enc.mnem (field c.enc.pat w) ∈ [c! "isb", c! "dmb", c! "dsb"] →
    (c.ops (field c.enc.pat w)).any (fun o => !o.isBarrier) = false ∧ c.enc.act (field c.enc.pat w) = .plain := by
  have hd : ∀ {s : Str} {k : Nat}, (s ++ dotW k) ∈ [c! "isb", c! "dmb", c! "dsb"] → False := by
    intro s k h
    unfold dotW at h
    have hl : ∀ {x y : Str}, x = y → x.getLast? = y.getLast? := fun e => by rw [e]
    simp only [List.mem_cons, List.not_mem_nil, or_false] at h
    split at h
    · rcases h with h | h | h <;> (have := hl h; simp at this)
    · rcases h with h | h | h <;> (have := hl h; simp at this)
  have hb : ∀ {k : Nat}, (c! "b" ++ condText k) ∈ [c! "isb", c! "dmb", c! "dsb"] → False := by
    intro k h
    have this : ∀ {x y : Str}, x = y → x.head? = y.head? := fun e => by rw [e]
    simp only [List.mem_cons, List.not_mem_nil, or_false] at h
    rcases h with h | h | h <;> (have := this h; simp at this)
  simp only [Case.all, List.forall_mem_cons]
  repeat' refine And.intro ?_ ?_
  all_goals first
    | exact fun w _ => ⟨rfl, rfl⟩
    | exact fun w h => absurd h (List.not_mem_of_ne_of_not_mem nofun (List.not_mem_of_ne_of_not_mem nofun (List.not_mem_of_ne_of_not_mem nofun List.not_mem_nil)))
    | exact fun w h => (hd h).elim
    | exact fun w h => (hb h).elim
    | (intro w h; revert h; show (c! "cps" ++ (if _ then c! "ie" else c! "id")) ∈ _ → _; split <;> exact fun h => absurd h (by decide))
    | exact fun x h => nomatch h

theorem barrier_comments {i : Instr} : ∀ {l : List Operand} {ss cs : List Str} {os : List Operand},
    formatEach (Operand.format i) l = .ok (ss, cs, os) → l.any (fun o => !o.isBarrier) = false → cs = []
  | [], ss, cs, os, h, _ => by
    simp only [formatEach, Except.ok.injEq, Prod.mk.injEq] at h
    exact h.2.1.symm
  | o :: t, ss, cs, os, h, hb => by
    rw [List.any_cons, Bool.or_eq_false_iff] at hb
    simp only [formatEach, Bind.bind, Except.bind] at h
    cases o with
    | mem l => exact absurd hb.1 (by simp [Operand.isBarrier])
    | one o =>
      cases o with
      | barrier k =>
        simp only [Operand.format, Op1.format, Bind.bind, Except.bind] at h
        cases ht : formatEach (Operand.format i) t with
        | error => rw [ht] at h; cases h
        | ok y =>
          obtain ⟨ss', cs', os'⟩ := y
          rw [ht] at h
          simp only [Except.ok.injEq, Prod.mk.injEq] at h
          rw [← h.2.1, barrier_comments ht hb.2]; rfl
      | _ => exact absurd hb.1 (by simp [Operand.isBarrier, Op1.isBarrier])

/-- **C74.** The text of every decoded instruction can be read back: the halfwords of the
encoding, the mnemonic, the operands, and in the comment the operands above 9 and the addresses
of labels (but not the options of barriers). -/
theorem decoded_line {c : Case} {w : Nat} {b : Bool} {a : Int} {i : Instr} (hc : Decoded c w b a i) {data : List Nat}
    (hd : ∀ b ∈ data, b < 256) (h : (trees.decode data a).1 = .ok i) :
    ∃ text i', i.format = .ok (text, i') ∧ Reader.line text = some ⟨C64.halfwords (data.take i.size), c.enc.mnem (field c.enc.pat w),
      c.items (field c.enc.pat w), if c.enc.mnem (field c.enc.pat w) ∈ [c! "isb", c! "dmb", c! "dsb"] then [] else
        (c.items (field c.enc.pat w)).flatMap (Item.noted a)⟩ := by
  obtain ⟨h1, h2, h3, -⟩ := C39.bytes_and_size data hd a i h
  obtain ⟨⟨ss, cs, os⟩, k1, -⟩ := C64.operands_ok hc
  obtain ⟨words, e1, e2, e3, e4⟩ := C64.byteString_eq hd h1 h2
  rw [← h3] at e1
  have hf := C64.format_eq e1 k1
  refine ⟨_, _, hf, ?_⟩
  have hw0 : words ≠ [] := by
    intro e
    rw [e] at e3
    rcases h1 with h1 | h1 <;> rw [h1] at e3 <;> simp at e3
  have hlen : (joinWith (c! " ") words).length ≤ 12 := by
    rcases h1 with h1 | h1 <;> rw [h1] at e3
    · match words, e3 with
      | [x], _ => rw [Reader.joinWith_single, e4 x (by simp)]; decide
    · match words, e3 with
      | [x, y], _ => rw [Reader.joinWith_cons, Reader.joinWith_single]; simp [e4 x (by simp), e4 y (by simp)]
  obtain ⟨r1, r2⟩ := decoded_reads hc k1
  have hok := C64.allOK_mem.1 (ops_ok c hc.mem w)
  have hrd := allReadable_mem.1 (ops_readable c hc.mem w)
  have hfl := allFull_mem.1 (ops_full c hc.mem w hc.raises)
  have hneat := formatEach_texts (P := Reader.Neat) k1 fun o ho x hx => by
    rw [hc.operands] at ho
    exact operand_neat (hok o ho) (hfl o ho) (hrd o ho) x hx
  have hname := mnem_name c hc.mem w
  have hml := mnem_short c hc.mem w
  rw [hc.mnemonic]
  refine Reader.line_reads hw0 e2 hlen hname (Nat.le_of_lt hml) hneat r1 ?_
  by_cases hbar : c.enc.mnem (field c.enc.pat w) ∈ [c! "isb", c! "dmb", c! "dsb"]
  · rw [if_pos hbar]
    have := (barrier_only c hc.mem w hbar).1
    rw [← hc.operands] at this
    rw [barrier_comments k1 this]; rfl
  · rw [if_neg hbar]
    exact r2 hbar

theorem raises_none : ∀ c ∈ Case.all, c.enc.pat ≠ Thumb.pushW.pat → ∀ w, fits c.enc.pat w = true →
    c.enc.ok (field c.enc.pat w) = true → c.raises (field c.enc.pat w) = none := by
  have hx : ∀ c ∈ Case.all, [Thumb.cmpRegT1.pat, Thumb.cmnReg.pat, Thumb.cmpRegT2.pat, Thumb.bCond.pat, Thumb.b.pat,
      Thumb.bl.pat].contains c.enc.pat = true → ∀ f, c.raises f = none := by
    simp only [Case.all, List.forall_mem_cons]
    repeat' refine And.intro ?_ ?_
    all_goals first
      | exact fun _ _ => rfl
      | exact fun h => absurd h (by decide)
      | exact fun x h => absurd h List.not_mem_nil
  intro c hc hp w h1 h2
  by_cases hw : Wrong c.enc (field c.enc.pat w)
  · refine hx c hc ?_ _
    rw [List.contains_iff_mem]
    rcases hw with k | ⟨k, _⟩ | ⟨k, _⟩ | ⟨k, _⟩ | ⟨k, _⟩ | ⟨k, _⟩ | ⟨k, _⟩
    · exact absurd k hp
    all_goals (rw [k]; simp)
  · exact ((agrees c hc w h1 h2).1 hw).2

theorem line_case {c : Case} (hc : c ∈ Case.all) {w : Nat} (h : c.enc.Is w) (hp : c.enc.pat ≠ Thumb.pushW.pat) {rest : List Nat}
    (hr : ∀ b ∈ rest, b < 256) (a : Int) :
    ∃ i text i', (trees.decode (C38.bytesOf c.enc w ++ rest) a).1 = .ok i ∧ i.format = .ok (text, i') ∧
      Reader.line text = some ⟨C64.halfwords (C38.bytesOf c.enc w), c.enc.mnem (field c.enc.pat w), c.items (field c.enc.pat w),
        if c.enc.mnem (field c.enc.pat w) ∈ [c! "isb", c! "dmb", c! "dsb"] then [] else
          (c.items (field c.enc.pat w)).flatMap (Item.noted a)⟩ := by
  obtain ⟨d, hd, hg⟩ := allGood.case c hc
  have hn := raises_none c hc hp w h.2.1 h.2.2
  have hsel := C38.trees_select hd hg h rest hr a
  obtain ⟨i, h1, -⟩ := (hg.correct w a h.2.1).2 hn
  rw [h1] at hsel
  have hdec := hg.decoded hc ((check_iff_fits hg.same w).mpr h.2.1) h1
  have hl : c.enc.pat.length = 16 ∨ c.enc.pat.length = 32 := by
    rw [hg.length]; cases d.is32 <;> simp
  have hb : ∀ b ∈ C38.bytesOf c.enc w ++ rest, b < 256 := by
    intro b hb
    rcases List.mem_append.mp hb with hb | hb
    · exact C38.bytesOf_lt hl h.1 b hb
    · exact hr b hb
  obtain ⟨text, i', k1, k2⟩ := decoded_line hdec hb hsel
  refine ⟨i, text, i', hsel, k1, ?_⟩
  have hsz : i.size = (C38.bytesOf c.enc w).length := by
    unfold Instr.size C38.bytesOf
    rw [hdec.is32]
    have := hdec.length
    cases hb : d.is32 <;> rw [hb] at this <;> simp [this]
  rw [hsz, List.take_left' rfl] at k2
  exact k2

/-- **C74.** The same for the bytes of every valid word of every encoding but PUSH.W, which is
not decoded. The operands are what the manual's syntax gives, unless the word is one of
`Misread`, and then they are not. -/
theorem line_of {e : Enc} (he : e ∈ encodings) {w : Nat} (h : e.Is w) (hp : e.pat ≠ Thumb.pushW.pat) {rest : List Nat}
    (hr : ∀ b ∈ rest, b < 256) (a : Int) :
    ∃ i text i' l, (trees.decode (C38.bytesOf e w ++ rest) a).1 = .ok i ∧ i.format = .ok (text, i') ∧ Reader.line text = some l ∧
      l.words = C64.halfwords (C38.bytesOf e w) ∧ l.mnemonic = e.mnem (field e.pat w) ∧
      (Written e (field e.pat w) a l.operands ↔ ¬ Misread e (field e.pat w) a) ∧
      l.notes = if e.mnem (field e.pat w) ∈ [c! "isb", c! "dmb", c! "dsb"] then [] else l.operands.flatMap (Item.noted a) := by
  obtain ⟨c, hc, rfl⟩ := C38.caseOf he
  obtain ⟨i, text, i', h1, h2, h3⟩ := line_case hc h hp hr a
  exact ⟨i, text, i', _, h1, h2, h3, rfl, rfl, reads_all c hc w a (raises_none c hc hp w h.2.1 h.2.2), rfl⟩

/-- LDR r1, [r2, #4]; POP {r0, r4-r7, pc}; MSR APSR_nzcvq, r0, which is shown with `_g`. -/
example : ((trees.decode [0x51, 0x68] 0).1.toOption.bind fun i => i.format.toOption.bind fun t => Reader.line t.1) =
    some ⟨[0x6851], c! "ldr", [R 1, .mem [.reg 2 false, .num 4]], []⟩ ∧
  ((trees.decode [0xf1, 0xbd] 0).1.toOption.bind fun i => i.format.toOption.bind fun t => Reader.line t.1) =
    some ⟨[0xbdf1], c! "pop", [.one (.regs [0, 4, 5, 6, 7, 15])], []⟩ ∧
  ((trees.decode [0x80, 0xf3, 0x00, 0x88] 0).1.toOption.bind fun i => i.format.toOption.bind fun t => Reader.line t.1) =
    some ⟨[0xf380, 0x8800], c! "msr", [.one (.word (c! "APSR_g")), R 0], []⟩ := by
  rw [trees, decoders_eq]; decide +kernel

end C74

namespace C65

theorem branch_items : ∀ c ∈ Case.all, ∀ w cond offset, c.enc.act (field c.enc.pat w) = .branch cond offset →
    c.items (field c.enc.pat w) = [.one (.label (offset.toInt + 4))] ∧ c.enc.pat ≠ Thumb.pushW.pat := by
  simp only [Case.all, List.forall_mem_cons]
  repeat' refine And.intro ?_ ?_
  all_goals first
    | (intro w _ _ h; injection h; done)
    | exact fun w _ _ h => by injection h with h1 h2; subst h2; exact ⟨rfl, by decide⟩
    | exact fun x h => absurd h List.not_mem_nil

theorem bl_items : ∀ c ∈ Case.all, ∀ w offset, c.enc.act (field c.enc.pat w) = .bl offset →
    c.items (field c.enc.pat w) = [.one (.label (offset.toInt + 4))] ∧ c.enc.pat ≠ Thumb.pushW.pat := by
  simp only [Case.all, List.forall_mem_cons]
  repeat' refine And.intro ?_ ?_
  all_goals first
    | (intro w _ h; injection h; done)
    | exact fun w _ h => by injection h with h2; subst h2; exact ⟨rfl, by decide⟩
    | exact fun x h => absurd h List.not_mem_nil

theorem adr_items : ∀ c ∈ Case.all, ∀ w add d imm, c.enc.act (field c.enc.pat w) = .adr add d imm →
    c.items (field c.enc.pat w) = [R d, .one (.label (imm.toNat + 4))] ∧ imm.toNat < 4096 ∧ d < 16 ∧ c.enc.pat ≠ Thumb.pushW.pat := by
  have hv : ∀ {v : Nat}, v < 4096 → (w32 v).toNat = v := fun h => by rw [w32, BitVec.toNat_ofNat]; omega
  simp only [Case.all, List.forall_mem_cons]
  repeat' refine And.intro ?_ ?_
  all_goals first
    | (intro w _ _ _ h; injection h; done)
    | exact fun x h => absurd h List.not_mem_nil
    | skip
  · intro w add d imm h
    injection h with h1 h2 h3; subst h2 h3
    have hd := C72.field_lt Case.adrT1.enc.pat w 'd' 3 (by decide)
    have hb := C72.field_lt Case.adrT1.enc.pat w 'i' 8 (by decide)
    have hb : 4 * field Case.adrT1.enc.pat w 'i' < 4096 := by omega
    rw [hv hb]
    exact ⟨rfl, hb, Nat.lt_of_lt_of_le hd (by decide), by decide⟩
  · intro w add d imm h
    injection h with h1 h2 h3; subst h2 h3
    have hd := C72.field_lt Case.adrAddW.enc.pat w 'd' 4 (by decide)
    have hb := C72.field_lt Case.adrAddW.enc.pat w 'i' 12 (by decide)
    rw [hv hb]
    exact ⟨rfl, hb, Nat.lt_of_lt_of_le hd (by decide), by decide⟩
  · intro w add d imm h
    injection h with h1 h2 h3; subst h2 h3
    have hd := C72.field_lt Case.adrSubW.enc.pat w 'd' 4 (by decide)
    have hb := C72.field_lt Case.adrSubW.enc.pat w 'i' 12 (by decide)
    rw [hv hb]
    exact ⟨rfl, hb, Nat.lt_of_lt_of_le hd (by decide), by decide⟩

theorem notes_of {c : Case} (hc : c ∈ Case.all) {w : Nat} (hp : c.enc.act (field c.enc.pat w) ≠ .plain) {l : List Int} :
    (if c.enc.mnem (field c.enc.pat w) ∈ [c! "isb", c! "dmb", c! "dsb"] then [] else l) = l := by
  split
  · next h => exact absurd (C74.barrier_only c hc w h).2 hp
  · rfl

/-- The number in the comment of an instruction. -/
def Shown (e : Enc) (w : Nat) (rest : List Nat) (a : Int) (x : Int) : Prop :=
  ∃ i text i' l, (trees.decode (C38.bytesOf e w ++ rest) a).1 = .ok i ∧ i.format = .ok (text, i') ∧ Reader.line text = some l ∧
    l.notes = [x]

theorem target (a : Int) (off : Word) : BitVec.ofInt 32 (a + (off.toInt + 4)) = BitVec.ofInt 32 a + 4#32 + off := by
  rw [BitVec.ofInt_add, BitVec.ofInt_add, BitVec.ofInt_toInt, BitVec.add_comm off, ← BitVec.add_assoc]
  rfl

/-- **C65.** Branches: the text has exactly one number in its comment, and by the manual a
taken branch in any state goes to that address. -/
theorem branch {e : Enc} (he : e ∈ encodings) {w : Nat} (h : e.Is w) {cond : Nat} {off : Word}
    (ha : e.act (field e.pat w) = .branch cond off) {rest : List Nat} (hr : ∀ b ∈ rest, b < 256) (a : Int) :
    ∃ x, Shown e w rest a x ∧ ∀ (s : Core) (size : Nat), s.reg 15 = BitVec.ofInt 32 a → s.holds cond = true →
      (e.act (field e.pat w)).run size s = s.set 15 (BitVec.ofInt 32 x) := by
  obtain ⟨c, hc, rfl⟩ := C38.caseOf he
  obtain ⟨k1, k2⟩ := branch_items c hc w cond off ha
  obtain ⟨i, text, i', h1, h2, h3⟩ := C74.line_case hc h k2 hr a
  rw [notes_of hc (by rw [ha]; nofun), k1] at h3
  refine ⟨a + (off.toInt + 4), ⟨i, text, i', _, h1, h2, h3, rfl⟩, ?_⟩
  intro s size hs hh
  rw [ha, Act.run, if_pos hh, target, ← hs]
  rfl

/-- **C65.** BL likewise. -/
theorem bl {e : Enc} (he : e ∈ encodings) {w : Nat} (h : e.Is w) {off : Word}
    (ha : e.act (field e.pat w) = .bl off) {rest : List Nat} (hr : ∀ b ∈ rest, b < 256) (a : Int) :
    ∃ x, Shown e w rest a x ∧ ∀ (s : Core) (size : Nat), s.reg 15 = BitVec.ofInt 32 a →
      (e.act (field e.pat w)).run size s = (s.set 14 (BitVec.ofInt 32 (a + 4) ||| 1#32)).set 15 (BitVec.ofInt 32 x) := by
  obtain ⟨c, hc, rfl⟩ := C38.caseOf he
  obtain ⟨k1, k2⟩ := bl_items c hc w off ha
  obtain ⟨i, text, i', h1, h2, h3⟩ := C74.line_case hc h k2 hr a
  rw [notes_of hc (by rw [ha]; nofun), k1] at h3
  refine ⟨a + (off.toInt + 4), ⟨i, text, i', _, h1, h2, h3, rfl⟩, ?_⟩
  intro s size hs
  rw [ha, Act.run, target, BitVec.ofInt_add, ← hs]
  rfl

theorem align4_toNat (v : Word) : (align4 v).toNat = v.toNat / 4 * 4 := by
  have := v.isLt
  rw [C57.align4_eq, BitVec.toNat_ofNat]
  omega

theorem adr_target (a : Int) (imm : Word) (add : Bool) (h : imm.toNat < 4096) :
    BitVec.ofInt 32 (a + (imm.toNat + 4)) =
      (if add then align4 (BitVec.ofInt 32 a + 4#32) + imm else align4 (BitVec.ofInt 32 a + 4#32) - imm) ↔
    a % 4 = 0 ∧ (add = true ∨ imm = 0#32) := by
  have e1 : ∀ x y : Word, x = y ↔ x.toNat = y.toNat := fun x y => BitVec.toNat_inj.symm
  have e2 := align4_toNat (BitVec.ofInt 32 a + 4#32)
  cases add
  · simp only [e1, BitVec.toNat_ofInt, Bool.false_eq_true, if_false, BitVec.toNat_sub, e2, BitVec.toNat_add, false_or]
    simp; omega
  · simp only [e1, BitVec.toNat_ofInt, if_true, e2, BitVec.toNat_add, true_or, and_true]
    simp; omega

/-- **C65.** ADR: the text has exactly one number in its comment. It is the address that the
manual says is put in the register if the instruction is at a multiple of four and nothing is
subtracted, and otherwise it is not. (SP and PC as the register are unpredictable.) -/
theorem adr_partial {e : Enc} (he : e ∈ encodings) {w : Nat} (h : e.Is w) {add : Bool} {d : Nat} {imm : Word}
    (ha : e.act (field e.pat w) = .adr add d imm) {rest : List Nat} (hr : ∀ b ∈ rest, b < 256) (a : Int) :
    ∃ x, Shown e w rest a x ∧ ∀ (s : Core) (size : Nat), s.reg 15 = BitVec.ofInt 32 a →
      (a % 4 = 0 ∧ (add = true ∨ imm = 0#32) → (e.act (field e.pat w)).run size s = s.result size d (BitVec.ofInt 32 x)) ∧
      (¬ (a % 4 = 0 ∧ (add = true ∨ imm = 0#32)) → d ≠ 13 → d ≠ 15 →
        ((e.act (field e.pat w)).run size s).reg d ≠ BitVec.ofInt 32 x) := by
  obtain ⟨c, hc, rfl⟩ := C38.caseOf he
  obtain ⟨k1, k3, k4, k2⟩ := adr_items c hc w add d imm ha
  obtain ⟨i, text, i', h1, h2, h3⟩ := C74.line_case hc h k2 hr a
  rw [notes_of hc (by rw [ha]; nofun), k1] at h3
  refine ⟨a + (imm.toNat + 4), ⟨i, text, i', _, h1, h2, h3, rfl⟩, ?_⟩
  intro s size hs
  have ht := adr_target a imm add k3
  have hrd : s.rd 15 = BitVec.ofInt 32 a + 4#32 := by rw [← hs]; rfl
  rw [ha]
  simp only [Act.run, hrd]
  constructor
  · intro hx
    rw [ht.2 hx]
  · intro hx h13 h15 hv
    refine hx (ht.1 (Eq.trans hv.symm ?_))
    have h13' : (d : Int) ≠ 13 := by omega
    have h15' : (d : Int) ≠ 15 := by omega
    have h1 : (d : Int) ≠ -1 := by omega
    have h2 : (d : Int) ≠ -2 := by omega
    have h3 : (d : Int) ≠ -3 := by omega
    have h4 : (d : Int) ≠ 17 := by omega
    have h5 : (d : Int) ≠ 18 := by omega
    simp only [Core.result, if_neg h15, Core.next, Core.set, keepBits, h13', h15', h1, h2, h3, h4, h5]
    simp

/-- B to itself at 0x1000; ADR r1, #8 at 2 shows 14, the manual says 12. -/
example : ((trees.decode [0xfe, 0xe7] 0x1000).1.toOption.bind fun i => i.format.toOption.bind fun t => Reader.line t.1) =
    some ⟨[0xe7fe], c! "b", [.one (.label 0)], [0x1000]⟩ ∧
  ((trees.decode [0x02, 0xa1] 2).1.toOption.bind fun i => i.format.toOption.bind fun t => Reader.line t.1) =
    some ⟨[0xa102], c! "adr", [R 1, .one (.label 12)], [14]⟩ ∧
  (∀ s : Core, s.reg 15 = 2#32 → (Act.run 2 s (.adr true 1 8#32)).reg 1 = 12#32) := by
  refine ⟨by rw [trees, decoders_eq]; decide +kernel, by rw [trees, decoders_eq]; decide +kernel, fun s h => ?_⟩
  simp [Act.run, Core.rd, Core.result, Core.next, Core.set, keepBits, h, align4]

end C65

namespace C66

/-- The numbers that are operands of an instruction; a label is not one of them. -/
def constants (e : Enc) (f : Char → Nat) : List Int :=
  let src : Src → List Int := fun
    | .imm v => [(v.toNat : Int)]
    | .reg _ => []
  let off : Off → List Int := fun
    | .imm v => [(v.toNat : Int)]
    | .reg _ s => [(s.2 : Int)]
  match e.act f with
  | .addSub _ _ _ _ _ x => src x
  | .rsb _ _ _ v => [(v.toNat : Int)]
  | .shiftImm _ _ _ _ k => [(k : Int)]
  | .extend _ _ k _ _ => [(k : Int)]
  | .mov _ _ _ x _ => src x
  | .mvnShift _ _ _ s => [(s.2 : Int)]
  | .cmp _ _ x => src x
  | .tst _ _ s => [(s.2 : Int)]
  | .load _ _ _ _ x => off x
  | .store _ _ _ x => off x
  | .loadLit _ _ add _ v => [if add then (v.toNat : Int) else -(v.toNat : Int)]
  | .plain =>
    if e.mnem f ∈ [c! "bkpt", c! "svc", c! "udf"] then [(f 'i' : Int)]
    else if e.mnem f = c! "udf.w" then [((4096 * f 'i' + f 'k' : Nat) : Int)]
    else if e.mnem f ∈ [c! "isb", c! "dmb", c! "dsb"] ∧ f 'o' ≠ 15 then [(f 'o' : Int)]
    else []
  | _ => []

/-- The numbers in an operand. -/
def inPiece : Piece → List Int
  | .num v => [v]
  | .shift _ k => [(k : Int)]
  | _ => []

def inItem : Item → List Int
  | .one p => inPiece p
  | .mem l => l.flatMap inPiece

theorem of_written {e : Enc} {f : Char → Nat} {a : Int} {l : List Item} (h : Written e f a l) :
    l.flatMap inItem = constants e f ∨ (constants e f = [0] ∧ l.flatMap inItem = []) := by
  unfold Written at h
  unfold constants
  cases ha : e.act f <;> rw [ha] at h <;> simp only at h ⊢
  case addSub _ _ _ _ _ x => rcases h with rfl | ⟨-, rfl⟩ <;> cases x <;> exact .inl rfl
  case rsb => rcases h with rfl | ⟨-, rfl⟩ <;> exact .inl rfl
  case logic => rcases h with rfl | ⟨-, rfl⟩ <;> exact .inl rfl
  case bic => rcases h with rfl | ⟨-, rfl⟩ <;> exact .inl rfl
  case shiftImm => rw [h]; exact .inl rfl
  case shiftReg => rcases h with rfl | ⟨-, rfl⟩ <;> exact .inl rfl
  case mul => rcases h with rfl | ⟨-, rfl⟩ <;> exact .inl rfl
  case adr => obtain ⟨x, rfl, -⟩ := h; exact .inl rfl
  case extend => rcases h with rfl | ⟨h0, rfl⟩; exact .inl rfl; exact .inr ⟨by simpa using h0, rfl⟩
  case rev => rw [h]; exact .inl rfl
  case mov _ _ _ x _ => rw [h]; cases x <;> exact .inl rfl
  case mvnShift => rcases h with rfl | ⟨h0, rfl⟩; exact .inl rfl; exact .inr ⟨by simpa using h0, rfl⟩
  case cmp _ _ x => rw [h]; cases x <;> exact .inl rfl
  case tst => rcases h with rfl | ⟨h0, rfl⟩; exact .inl rfl; exact .inr ⟨by simpa using h0, rfl⟩
  case branch => rw [h]; exact .inl rfl
  case bl => rw [h]; exact .inl rfl
  case blx => rw [h]; exact .inl rfl
  case bx => rw [h]; exact .inl rfl
  case load _ _ _ _ x =>
    obtain ⟨o, ho, rfl⟩ := h
    cases x with
    | imm v => rcases ho with rfl | ⟨h0, rfl⟩; exact .inl rfl; exact .inr ⟨by rw [h0]; rfl, rfl⟩
    | reg m s => rcases ho with rfl | ⟨h0, rfl⟩; exact .inl rfl; exact .inr ⟨by simpa using h0, rfl⟩
  case store _ _ _ x =>
    obtain ⟨o, ho, rfl⟩ := h
    cases x with
    | imm v => rcases ho with rfl | ⟨h0, rfl⟩; exact .inl rfl; exact .inr ⟨by rw [h0]; rfl, rfl⟩
    | reg m s => rcases ho with rfl | ⟨h0, rfl⟩; exact .inl rfl; exact .inr ⟨by simpa using h0, rfl⟩
  case loadLit => rcases h with rfl | ⟨h0, rfl⟩; exact .inl rfl; exact .inr ⟨by rw [h0]; simp, rfl⟩
  case push => rw [h]; exact .inl rfl
  case pop => rw [h]; exact .inl rfl
  case ldm => rw [h]; exact .inl rfl
  case stm => rw [h]; exact .inl rfl
  case cps => rw [h]; exact .inl rfl
  case mrs => rw [h]; exact .inl rfl
  case msr => rw [h]; exact .inl rfl
  case plain =>
    unfold Hint at h
    split
    · next h1 => rw [if_pos h1] at h; rw [h]; exact .inl rfl
    · next h1 =>
      rw [if_neg h1] at h
      split
      · next h2 => rw [if_pos h2] at h; rw [h]; exact .inl rfl
      · next h2 =>
        rw [if_neg h2] at h
        split
        · next h3 => rw [if_pos h3.1, if_neg h3.2] at h; rw [h]; exact .inl rfl
        · next h3 =>
          split at h
          · next h4 =>
            have : f 'o' = 15 := Decidable.byContradiction fun k => h3 ⟨h4, k⟩
            rw [if_pos this] at h
            rw [h]; exact .inl rfl
          · rw [h]; exact .inl rfl

def misreads : List Str := [Thumb.pushW.pat, Thumb.cmpRegT1.pat, Thumb.cmnReg.pat, Thumb.cmpRegT2.pat, Thumb.adrT1.pat,
  Thumb.adrAddW.pat, Thumb.adrSubW.pat, Thumb.msr.pat]

theorem misread_mem {e : Enc} {f : Char → Nat} {a : Int} (h : Misread e f a) : misreads.contains e.pat = true := by
  rw [List.contains_iff_mem]
  rcases h with k | ⟨k, _⟩ | ⟨k, _⟩ | ⟨k, _⟩ | ⟨k, _⟩ | ⟨k, _⟩ | ⟨k, _⟩ | ⟨k, _⟩ <;> (rw [k]; simp [misreads])

theorem none_of : ∀ c ∈ Case.all, ∀ w, misreads.contains c.enc.pat = true →
    (c.items (field c.enc.pat w)).flatMap inItem = constants c.enc (field c.enc.pat w) := by
  simp only [Case.all, List.forall_mem_cons]
  repeat' refine And.intro ?_ ?_
  all_goals first
    | exact fun _ h => absurd h (by decide)
    | exact fun _ _ => rfl
    | exact fun x h => absurd h List.not_mem_nil

/-- **C66.** For every valid word of every encoding but PUSH.W, which is not decoded: the
numbers in the operands of the text are those of the instruction, except that a zero may be
left out. -/
theorem immediates {e : Enc} (he : e ∈ encodings) {w : Nat} (h : e.Is w) (hp : e.pat ≠ Thumb.pushW.pat) {rest : List Nat}
    (hr : ∀ b ∈ rest, b < 256) (a : Int) :
    ∃ i text i' l, (trees.decode (C38.bytesOf e w ++ rest) a).1 = .ok i ∧ i.format = .ok (text, i') ∧ Reader.line text = some l ∧
      (l.operands.flatMap inItem = constants e (field e.pat w) ∨
        (constants e (field e.pat w) = [0] ∧ l.operands.flatMap inItem = [])) := by
  obtain ⟨c, hc, rfl⟩ := C38.caseOf he
  obtain ⟨i, text, i', h1, h2, h3⟩ := C74.line_case hc h hp hr a
  refine ⟨i, text, i', _, h1, h2, h3, ?_⟩
  by_cases hm : Misread c.enc (field c.enc.pat w) a
  · exact .inl (none_of c hc w (misread_mem hm))
  · exact of_written ((reads_all c hc w a (C74.raises_none c hc hp w h.2.1 h.2.2)).2 hm)

/-- SUB SP, #508 and LDR r0, [pc, #-4]. -/
example : ((trees.decode [0xff, 0xb0] 0).1.toOption.bind fun i => i.format.toOption.bind fun t => Reader.line t.1) =
    some ⟨[0xb0ff], c! "sub", [R 13, N 508], [508]⟩ ∧
  ((trees.decode [0x5f, 0xf8, 0x04, 0x00] 0).1.toOption.bind fun i => i.format.toOption.bind fun t => Reader.line t.1) =
    some ⟨[0xf85f, 0x0004], c! "ldr.w", [R 0, .mem [.reg 15 false, .num (-4)]], []⟩ := by
  rw [trees, decoders_eq]; decide +kernel

end C66
end Verif
