import Verif.Props.C93
import Verif.Props.C81

/-!
# C94: the simulator does what its own listing says

The operands shown and the attributes used in execution are set independently by the decoding functions. C93
compares the text with the manual, C81 the execution; here the two are compared with each other.
-/

namespace Verif
open BS Thumb Handler

namespace C94

/-- Executing the object does what the mnemonic and the operands mean at this address. -/
def Follows (i : Instr) (a : Int) (mnem : Str) (l : List Item) (s : Machine) (c : Core) : Prop :=
  ∃ act, meaning a mnem l = some act ∧ Does i act s c

theorem follows_of {i : Instr} {a : Int} {mnem : Str} {l : List Item} {s : Machine} {c : Core} {act : Act}
    (h : meaning a mnem l = some act) : Follows i a mnem l s c ↔ Does i act s c := by
  constructor
  · rintro ⟨act', h1, h2⟩
    rw [h] at h1
    cases h1
    exact h2
  · exact fun h2 => ⟨act, h, h2⟩

theorem follows_stands {i : Instr} {a : Int} {mnem : Str} {l : List Item} {s : Machine} {c : Core} {act : Act}
    (h : C93.Stands a mnem l act) : Follows i a mnem l s c ↔ Does i act s c := by
  obtain ⟨act', h1, h2⟩ := C93.stands_run h
  rw [follows_of h1]
  unfold Does
  rw [h2]

/-- When executing the object of a word does what its line says.

* CMP and CMN of registers are shown with the wrong register and compare that register: the line is followed if the
  sum is not negative, for the first encoding of CMP always.
* ADR puts another address in the register than the line shows, unless the instruction is at a multiple of four
  and nothing is subtracted.
* MSR does nothing; shown with `_g` it is to do nothing, shown without a suffix it has no meaning.
* All other words as in `C81.RightWord`. -/
def SaysRight (e : Enc) (f : Char → Nat) (a : Int) (c : Core) : Prop :=
  if e.pat = Thumb.cmpRegT1.pat then True
  else if e.pat = Thumb.cmpRegT2.pat then (c.reg (f 'n') - c.reg ((f 'n' % 8 : Nat) : Int)).msb = false
  else if e.pat = Thumb.cmnReg.pat then (c.reg (f 'n') + c.reg (f 'n')).msb = false
  else if e.pat = Thumb.adrT1.pat ∨ e.pat = Thumb.adrAddW.pat then a % 4 = 0
  else if e.pat = Thumb.adrSubW.pat then a % 4 = 0 ∧ f 'i' = 0
  else if e.pat = Thumb.msr.pat ∧ f 's' < 4 then f 'k' ≠ 3
  else C81.RightWord e f c

theorem sum_sub (x y : Word) : C17.sum x (~~~y) true = x - y := by
  apply BitVec.eq_of_toNat_eq
  unfold C17.sum
  rw [BitVec.toNat_ofNat, BitVec.toNat_sub, BitVec.toNat_not]
  have := y.isLt
  simp only [Bool.toNat_true]
  congr 1
  omega

theorem sum_add (x y : Word) : C17.sum x y false = x + y := by
  apply BitVec.eq_of_toNat_eq
  unfold C17.sum
  rw [BitVec.toNat_ofNat, BitVec.toNat_add]
  simp

theorem follows_cmp {i : Instr} {a : Int} {mnem : Str} {sub : Bool} {n m : Nat} {s : Machine} {c : Core}
    (hf : form mnem = some (fun _ => cmpOf sub)) (h : (Act.cmp sub n (.reg m)).Of i) (hn : n < 15) (hm : m < 15) (hs : Shows s c) :
    Follows i a mnem [R n, R m] s c ↔ (if sub then c.reg n - c.reg m else c.reg n + c.reg m).msb = false := by
  rw [follows_of (act := .cmp sub n (.reg m)) (by rw [Mean.meaning_of hf]; rfl)]
  rw [C48.compare_right_iff_partial h hn hm hs]
  have e : Src.val c (.reg m) = c.reg m := by
    show c.rd m = _
    exact core_rd _ hm
  rw [e]
  cases sub
  · simp only [Bool.false_eq_true, if_false, sum_add]
  · simp only [if_true, sum_sub]

theorem follows_adr {i : Instr} {a : Int} {mnem : Str} {add : Bool} {d : Nat} {imm : Word} {s : Machine} {c : Core}
    (hf : form mnem = some adrOf) (h : (Act.adr add d imm).Of i) (hd : d < 15) (hd' : d ≠ 13) (hi : imm.toNat < 4096)
    (hs : Shows s c) (hm : MemOK s.mem) :
    Follows i a mnem [R d, .one (.label (imm.toNat + 4))] s c ↔ a % 4 = 0 ∧ (add = true ∨ imm.toNat = 0) := by
  have hrun := does_right h trivial hd hs hm trivial
  have hk : keepBits (d : Int) = id := by
    funext v
    unfold keepBits
    rw [if_neg (by omega), if_neg (by omega), if_neg (by omega)]
    rfl
  have hmean : meaning a mnem [R d, .one (.label (imm.toNat + 4))] =
      if imm.toNat + a % 4 < 4096 then some (.adr true d (w32 (imm.toNat + a % 4).toNat)) else none := by
    rw [Mean.meaning_of hf]
    have e : a + ((imm.toNat : Int) + 4) - (a + 4) / 4 * 4 = imm.toNat + a % 4 := by omega
    unfold adrOf
    simp only
    rw [e]
    have e2 : (imm.toNat + a % 4).natAbs = (imm.toNat + a % 4).toNat := by omega
    rw [e2]
    by_cases hlt : imm.toNat + a % 4 < 4096
    · rw [if_pos (by omega), if_pos hlt, decide_eq_true (by omega)]
    · rw [if_neg (by omega), if_neg hlt]
  by_cases hlt : imm.toNat + a % 4 < 4096
  · rw [if_pos hlt] at hmean
    rw [follows_of hmean]
    unfold Does at hrun ⊢
    rw [C81.ends_congr hrun]
    have r : ∀ (ad : Bool) (v : Word), (Act.adr ad d v).run i.size c =
        c.result i.size d (if ad then align4 (c.rd 15) + v else align4 (c.rd 15) - v) := fun _ _ => rfl
    rw [r, r, C81.result_iff hd, hk]
    simp only [id]
    generalize align4 (c.rd 15) = base
    have hv : (w32 (imm.toNat + a % 4).toNat).toNat = imm.toNat + (a % 4).toNat := by
      unfold w32
      rw [BitVec.toNat_ofNat]
      omega
    generalize w32 (imm.toNat + a % 4).toNat = v at *
    have hbase := base.isLt
    rw [← BitVec.toNat_inj]
    cases add
    · simp only [Bool.false_eq_true, if_false, if_true, false_or]
      rw [BitVec.toNat_sub, BitVec.toNat_add, hv]
      omega
    · simp only [if_true, true_or, and_true]
      rw [BitVec.toNat_add, BitVec.toNat_add, hv]
      omega
  · rw [if_neg hlt] at hmean
    constructor
    · rintro ⟨act, h1, -⟩
      rw [hmean] at h1
      cases h1
    · omega

theorem msr_shown (f : Char → Nat) : Case.msr.items f =
    [.one (.word (specialName (BitVec.ofNat 8 (f 's')) ++ shownBits (BitVec.ofNat 8 (f 's')) (some (BitVec.ofNat 2 (f 'k'))))), R (f 'n')] := by
  have e1 : BitVec.ofNat 8 (ofBV (BitVec.ofNat 8 (f 's'))).value = BitVec.ofNat 8 (f 's') := (BitVec.ofNat_toNat ..).trans (by simp)
  have e2 : BitVec.ofNat 2 (ofBV (BitVec.ofNat 2 (f 'k'))).value = BitVec.ofNat 2 (f 'k') := (BitVec.ofNat_toNat ..).trans (by simp)
  show [Item.one (.word (specialName (BitVec.ofNat 8 (ofBV (BitVec.ofNat 8 (f 's'))).value) ++
    shownBits (BitVec.ofNat 8 (ofBV (BitVec.ofNat 8 (f 's'))).value) (some (BitVec.ofNat 2 (ofBV (BitVec.ofNat 2 (f 'k'))).value)))), R (f 'n')] = _
  rw [e1, e2]

theorem named_g : ∀ s : Fin 4, ∀ k : BitVec 2, k ≠ 0#2 →
    msrNamed (specialName (BitVec.ofNat 8 s.val) ++ shownBits (BitVec.ofNat 8 s.val) (some k)) =
      if k = 3#2 then none else some (1#2, BitVec.ofNat 8 s.val) := by decide +kernel

theorem follows_msr {i : Instr} {a : Int} {f : Char → Nat} {s : Machine} {c : Core}
    (h : (Act.msr (f 'n') (BitVec.ofNat 2 (f 'k')) (BitVec.ofNat 8 (f 's'))).Of i) (hk : f 'k' < 4) (h0 : f 'k' ≠ 0) (h4 : f 's' < 4)
    (hs : Shows s c) : Follows i a (c! "msr") (Case.msr.items f) s c ↔ f 'k' ≠ 3 := by
  rw [msr_shown]
  have hn := named_g ⟨f 's', h4⟩ (BitVec.ofNat 2 (f 'k')) (by
    rw [Ne, ← BitVec.toNat_inj, BitVec.toNat_ofNat]
    show ¬ f 'k' % 4 = 0
    omega)
  simp only at hn
  have h3 : BitVec.ofNat 2 (f 'k') = 3#2 ↔ f 'k' = 3 := by
    rw [← BitVec.toNat_inj, BitVec.toNat_ofNat]
    show f 'k' % 4 = 3 ↔ _
    omega
  generalize specialName (BitVec.ofNat 8 (f 's')) ++ shownBits (BitVec.ofNat 8 (f 's')) (some (BitVec.ofNat 2 (f 'k'))) = t at *
  have hmean : meaning a (c! "msr") [.one (.word t), R (f 'n')] = (msrNamed t).map fun p => .msr (f 'n') p.1 p.2 := by
    rw [Mean.meaning_of (g := fun _ => msrOf) rfl]
    rfl
  by_cases hk3 : f 'k' = 3
  · rw [hn, if_pos (h3.2 hk3)] at hmean
    constructor
    · rintro ⟨act, h1, -⟩
      rw [hmean] at h1
      cases h1
    · exact fun h => absurd hk3 h
  · rw [hn, if_neg fun h => hk3 (h3.1 h)] at hmean
    rw [follows_of hmean]
    refine ⟨fun _ => hk3, fun _ => ?_⟩
    have he := C58.msr_exact h hs
    have hr : (Act.msr (f 'n') 1#2 (BitVec.ofNat 8 (f 's'))).run i.size c = c.next i.size := by
      have e3 : (BitVec.ofNat 8 (f 's')).toNat < 4 := by
        rw [BitVec.toNat_ofNat]
        omega
      show (c.writeSpecial 1 (BitVec.ofNat 8 (f 's')).toNat (c.reg (f 'n'))).next i.size = _
      unfold Core.writeSpecial
      rw [if_pos e3, if_neg (by decide)]
    unfold Does
    simp only
    rw [hr]
    exact he

theorem not_cmp {e : Enc} {f : Char → Nat} {a : Int} (h1 : e.pat ≠ Thumb.pushW.pat) (h2 : e.pat ≠ Thumb.cmpRegT1.pat)
    (h3 : e.pat ≠ Thumb.cmpRegT2.pat) (h4 : e.pat ≠ Thumb.cmnReg.pat) (h5 : ¬ (e.pat = Thumb.adrT1.pat ∨ e.pat = Thumb.adrAddW.pat))
    (h6 : e.pat ≠ Thumb.adrSubW.pat) (h7 : ¬ (e.pat = Thumb.msr.pat ∧ f 's' < 4)) : ¬ Misread e f a := by
  rintro (k | ⟨k, _⟩ | ⟨k, _⟩ | ⟨k, _⟩ | ⟨k, _⟩ | ⟨k, _⟩ | ⟨k, _⟩ | ⟨k, k', _⟩)
  · exact h1 k
  · exact h2 k
  · exact h4 k
  · exact h3 k
  · exact h5 (.inl k)
  · exact h5 (.inr k)
  · exact h6 k
  · exact h7 ⟨k, k'⟩

/-- **C94.** For every encoding, every valid word of it, any address, whatever bytes follow, and every state: the line
shown for the word can be read, and executing the object does what the line means at this address, if and only if
`SaysRight` holds. Left out are PUSH.W with a list, which is not decoded, ADR to SP, which the manual leaves open, and
what C81 leaves out. -/
theorem follows_iff_partial {e : Enc} (he : e ∈ encodings) {w : Nat} (h : e.Is w) (hpush : e.pat ≠ Thumb.pushW.pat)
    (hp : (e.act (field e.pat w)).NoPc ∨ C81.PcDefined (e.pat.length / 8) (e.act (field e.pat w)))
    (hsp : ∀ add imm, e.act (field e.pat w) ≠ .adr add 13 imm)
    {rest : List Nat} (hr : ∀ b ∈ rest, b < 256) (a : Int) {s : Machine} {c : Core}
    (hs : Shows s c) (hm : MemOK s.mem) (hin : C81.InMemory s.mem c (e.act (field e.pat w))) :
    ∃ i text i' l, (trees.decode (C38.bytesOf e w ++ rest) a).1 = .ok i ∧ i.format = .ok (text, i') ∧ Reader.line text = some l ∧
      (Follows i a l.mnemonic l.operands s c ↔ SaysRight e (field e.pat w) a c) := by
  have hright := C81.decode_execute_iff_partial e he w h hp rest hr a hs hm hin
  obtain ⟨k, hk, rfl⟩ := C38.caseOf he
  obtain ⟨i, text, i', d1, d2, d3⟩ := C74.line_case hk h hpush hr a
  refine ⟨i, text, i', _, d1, d2, d3, ?_⟩
  simp only
  obtain ⟨i2, e1, e2, -⟩ := case_decodes hk h (C74.raises_none k hk hpush w h.2.1 h.2.2) rest hr a
  rw [d1] at e1
  cases e1
  unfold SaysRight
  by_cases c2 : k.enc.pat = Thumb.cmpRegT1.pat
  · rw [if_pos c2]
    cases C82.same_pat hk (k' := Case.cmpRegT1) (by simp [Case.all]) c2
    rcases hp with hp | hp
    · have := follows_cmp (a := a) (mnem := c! "cmp") (sub := true) rfl e2 hp.1 hp.1 hs
      refine this.trans ⟨fun _ => trivial, fun _ => ?_⟩
      rw [if_pos rfl, BitVec.sub_self]
      rfl
    · exact hp.elim
  rw [if_neg c2]
  by_cases c3 : k.enc.pat = Thumb.cmpRegT2.pat
  · rw [if_pos c3]
    cases C82.same_pat hk (k' := Case.cmpRegT2) (by simp [Case.all]) c3
    rcases hp with hp | hp
    · exact follows_cmp (a := a) (mnem := c! "cmp") (sub := true) rfl e2 hp.1 (by omega) hs
    · exact hp.elim
  rw [if_neg c3]
  by_cases c4 : k.enc.pat = Thumb.cmnReg.pat
  · rw [if_pos c4]
    cases C82.same_pat hk (k' := Case.cmnReg) (by simp [Case.all]) c4
    rcases hp with hp | hp
    · exact follows_cmp (a := a) (mnem := c! "cmn") (sub := false) rfl e2 hp.1 hp.1 hs
    · exact hp.elim
  rw [if_neg c4]
  have adr : ∀ {add : Bool} {d : Nat} {imm : Word}, k.enc.act (field k.enc.pat w) = .adr add d imm →
      k.act (field k.enc.pat w) = k.enc.act (field k.enc.pat w) → form (k.enc.mnem (field k.enc.pat w)) = some adrOf →
      (Follows i a (k.enc.mnem (field k.enc.pat w)) (k.items (field k.enc.pat w)) s c ↔ a % 4 = 0 ∧ (add = true ∨ imm.toNat = 0)) := by
    intro add d imm h1 h2 h3
    obtain ⟨g1, g2, -, -⟩ := C65.adr_items k hk w add d imm h1
    rw [g1]
    rw [h2, h1] at e2
    rw [h1] at hp hsp
    rcases hp with hp | hp
    · exact follows_adr h3 e2 hp (fun hd => hsp add imm (by rw [hd])) g2 hs hm
    · exact hp.elim
  by_cases c5 : k.enc.pat = Thumb.adrT1.pat ∨ k.enc.pat = Thumb.adrAddW.pat
  · rw [if_pos c5]
    rcases c5 with c5 | c5
    · cases C82.same_pat hk (k' := Case.adrT1) (by simp [Case.all]) c5
      refine (adr rfl rfl rfl).trans ?_
      simp
    · cases C82.same_pat hk (k' := Case.adrAddW) (by simp [Case.all]) c5
      refine (adr rfl rfl rfl).trans ?_
      simp
  rw [if_neg c5]
  by_cases c6 : k.enc.pat = Thumb.adrSubW.pat
  · rw [if_pos c6]
    cases C82.same_pat hk (k' := Case.adrSubW) (by simp [Case.all]) c6
    refine (adr rfl rfl rfl).trans ?_
    have hb := C72.field_lt Case.adrSubW.enc.pat w 'i' 12 (by decide)
    have hv : (w32 (field Case.adrSubW.enc.pat w 'i')).toNat = field Case.adrSubW.enc.pat w 'i' := by
      rw [w32, BitVec.toNat_ofNat]
      omega
    rw [hv]
    simp
  rw [if_neg c6]
  by_cases c7 : k.enc.pat = Thumb.msr.pat ∧ field k.enc.pat w 's' < 4
  · rw [if_pos c7]
    obtain ⟨c7, c8⟩ := c7
    cases C82.same_pat hk (k' := Case.msr) (by simp [Case.all]) c7
    have hok : Thumb.msr.ok (field Case.msr.enc.pat w) = true := h.2.2
    exact follows_msr e2 (C72.field_lt Case.msr.enc.pat w 'k' 2 (by decide)) (of_decide_eq_true hok).2.2.1 c8 hs
  rw [if_neg c7]
  rw [follows_stands (C93.written_means he h ((reads_all k hk w a (C74.raises_none k hk hpush w h.2.1 h.2.2)).2
    (not_cmp hpush c2 c3 c4 c5 c6 c7)))]
  rw [← C81.decoded_iff d1 fun i => Does i (k.enc.act (field k.enc.pat w)) s c]
  exact hright

/-- **C94.** The claim fails in every state: the line of `adr.w r0, #-16` at address 0 shows address 20, and executing it
gives another one. -/
theorem full_claim_false : ∃ e ∈ encodings, ∃ w, e.Is w ∧ ∀ s c, Shows s c → MemOK s.mem →
    ∃ i text i' l, (trees.decode (C38.bytesOf e w) 0).1 = .ok i ∧ i.format = .ok (text, i') ∧ Reader.line text = some l ∧
      ¬ Follows i 0 l.mnemonic l.operands s c := by
  refine ⟨Thumb.adrSubW, by simp [encodings], 0x0010f2af, ⟨by decide, by decide, rfl⟩, fun s c hs hm => ?_⟩
  have ha : Thumb.adrSubW.act (field Thumb.adrSubW.pat 0x0010f2af) = .adr false 0 16#32 := by decide +kernel
  obtain ⟨i, text, i', l, h1, h2, h3, h4⟩ := follows_iff_partial (e := Thumb.adrSubW) (by simp [encodings]) (w := 0x0010f2af)
    ⟨by decide, by decide, rfl⟩ (by decide) (.inl (by rw [ha]; exact (by decide : 0 < 15))) (by rw [ha]; nofun) (rest := [])
    (by nofun) 0 hs hm (by rw [ha]; trivial)
  rw [List.append_nil] at h1
  refine ⟨i, text, i', l, h1, h2, h3, fun h => ?_⟩
  have := h4.1 h
  unfold SaysRight at this
  rw [if_neg (by decide), if_neg (by decide), if_neg (by decide), if_neg (by decide), if_pos rfl] at this
  exact absurd this.2 (by decide)

/-- `adr.w r0, #-16` at address 0 is shown with the label 20 and gives -12; `cmp r1, r2` is shown as `cmp r1, r1` and
says that they are equal; `b` to itself is shown so and jumps to 7. -/
example : C93.says [0xaf, 0xf2, 0x10, 0x00] 0 = some (c! "adr.w", [R 0, .one (.label 20)]) ∧
    ranRegs [0xaf, 0xf2, 0x10, 0x00] (sample []) [0] = some [some 0xfffffff4] ∧
    C93.says [0x91, 0x42] 0 = some (c! "cmp", [R 1, R 1]) ∧
    ranRegs [0x91, 0x42] (sample [(1, 5), (2, 7)]) [16] = some [some 0x60000000] ∧
    C93.says [0xfe, 0xe7] 0 = some (c! "b", [.one (.label 0)]) ∧
    ranRegs [0xfe, 0xe7] (sample []) [15] = some [some 7] := by
  unfold C93.says ranRegs ran
  rw [trees, decoders_eq]
  decide +kernel

/-- `cmn r1, r2`, shown as `cmn r1, r1`, does what it says if and only if twice the register is not negative. -/
example (c : Core) : SaysRight Thumb.cmnReg (field Thumb.cmnReg.pat 0x42d1) 0 c ↔ (c.reg 1 + c.reg 1).msb = false := by
  unfold SaysRight
  rw [if_neg (by decide), if_neg (by decide), if_pos rfl]
  rw [show field Thumb.cmnReg.pat 0x42d1 'n' = 1 by decide]
  exact Iff.rfl

end C94
end Verif
