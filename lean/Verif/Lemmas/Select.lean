import Verif.Lemmas.Rows
import Verif.Lemmas.Table

/-!
# Every encoding is the one the search settles on

Generated: one theorem for each encoding. Most words of an encoding match no encoding that
is tried before; the 10 encodings that have such words are handled one by one.
-/

namespace Verif
open BS Thumb Handler

/-- The decoders in the order in which they are tried. -/
def sortedOf (is32 : Bool) : List Dec := if is32 then sorted32 else sorted16

/-- Searching for a valid word of this encoding ends at `d`. -/
def Case.Selected (c : Case) (d : Dec) : Prop := ∀ (w : Nat) (a : Int), fits c.enc.pat w = true →
  c.enc.ok (field c.enc.pat w) = true → tryAll w a (sortedOf d.is32) = d.decode w a

/-- A valid word is not passed on to the next decoder. -/
def Case.Settles (c : Case) : Prop := ∀ f, c.enc.ok f = true → c.raises f ≠ some .decodeError

theorem Case.Correct.settles {c : Case} {d : Dec} (h : c.Correct d) (hs : c.Settles) {w : Nat} (a : Int)
    (hf : fits c.enc.pat w = true) (ho : c.enc.ok (field c.enc.pat w) = true) : d.decode w a ≠ .error .decodeError := by
  obtain ⟨h1, h2⟩ := h w a hf
  cases hr : c.raises (field c.enc.pat w) with
  | none => obtain ⟨i, hi, _⟩ := h2 hr; rw [hi]; simp
  | some e =>
    rw [h1 e hr]
    intro he
    injection he with he
    exact hs _ ho (by rw [hr, he])

theorem tryAll_head {d : Dec} {w : Nat} {a : Int} (t : List Dec) (hc : d.check w = true) (hd : d.decode w a ≠ .error .decodeError) :
    tryAll w a (d :: t) = d.decode w a := by
  rw [tryAll, if_pos hc]
  split
  · next h => exact absurd h hd
  · rfl

theorem tryAll_skip {d : Dec} {w : Nat} {a : Int} (t : List Dec) (h : d.check w = true → d.decode w a = .error .decodeError) :
    tryAll w a (d :: t) = tryAll w a t := by
  rw [tryAll]
  split
  · next hc => rw [h hc]
  · rfl

/-- Nothing that is tried before can match. -/
theorem selected_of_head {c : Case} {d : Dec} (t : List Dec) (h : c.Correct d) (hs : c.Settles) (hp : samePat c.enc.pat d = true)
    (hh : ((sortedOf d.is32).filter fun e => !clashes d e) = d :: t) : c.Selected d := by
  intro w a hf ho
  have hc := (check_iff_fits hp w).mpr hf
  rw [← tryAll_clash hc, hh]
  exact tryAll_head t hc (h.settles hs a hf ho)

/-- Two that are tried before do not want the word. -/
theorem selected_of_two {c : Case} {d e1 e2 : Dec} (t : List Dec) (h : c.Correct d) (hs : c.Settles) (hp : samePat c.enc.pat d = true)
    (hh : ((sortedOf d.is32).filter fun e => !clashes d e) = e1 :: e2 :: d :: t)
    (h1 : ∀ w a, fits c.enc.pat w = true → c.enc.ok (field c.enc.pat w) = true → e1.check w = true → e1.decode w a = .error .decodeError)
    (h2 : ∀ w a, fits c.enc.pat w = true → c.enc.ok (field c.enc.pat w) = true → e2.check w = true → e2.decode w a = .error .decodeError) :
    c.Selected d := by
  intro w a hf ho
  have hc := (check_iff_fits hp w).mpr hf
  rw [← tryAll_clash hc, hh, tryAll_skip _ (h1 w a hf ho), tryAll_skip _ (h2 w a hf ho)]
  exact tryAll_head t hc (h.settles hs a hf ho)

/-- One that is tried before does not want the word. -/
theorem selected_of_one {c : Case} {d e1 : Dec} (t : List Dec) (h : c.Correct d) (hs : c.Settles) (hp : samePat c.enc.pat d = true)
    (hh : ((sortedOf d.is32).filter fun e => !clashes d e) = e1 :: d :: t)
    (h1 : ∀ w a, fits c.enc.pat w = true → c.enc.ok (field c.enc.pat w) = true → e1.check w = true → e1.decode w a = .error .decodeError) :
    c.Selected d := by
  intro w a hf ho
  have hc := (check_iff_fits hp w).mpr hf
  rw [← tryAll_clash hc, hh, tryAll_skip _ (h1 w a hf ho)]
  exact tryAll_head t hc (h.settles hs a hf ho)

namespace Select

theorem bics : Case.bics.Selected
    ⟨c! "bics", .bitClear, .adc, [], false, ⟨0xffc0, 0x4380, [⟨c! "Rdn", 0, 3⟩, ⟨c! "Rm", 3, 3⟩]⟩⟩ := by
  exact selected_of_head [] Rows.bics (by intro f; simp [Case.bics, Thumb.bics] <;> grind) (by decide +kernel) (by decide +kernel)

theorem orrs : Case.orrs.Selected
    ⟨c! "orrs", .bitOp, .adc, [.op .or], false, ⟨0xffc0, 0x4300, [⟨c! "Rdn", 0, 3⟩, ⟨c! "Rm", 3, 3⟩]⟩⟩ := by
  exact selected_of_head [] Rows.orrs (by intro f; simp [Case.orrs, Thumb.orrs] <;> grind) (by decide +kernel) (by decide +kernel)

theorem rorsReg : Case.rorsReg.Selected
    ⟨c! "rors", .shiftOp, .adc, [.type .ror], false, ⟨0xffc0, 0x41c0, [⟨c! "Rdn", 0, 3⟩, ⟨c! "Rm", 3, 3⟩]⟩⟩ := by
  exact selected_of_head [] Rows.rorsReg (by intro f; simp [Case.rorsReg, Thumb.rorsReg] <;> grind) (by decide +kernel) (by decide +kernel)

theorem sbcs : Case.sbcs.Selected
    ⟨c! "sbcs", .addSub, .adc, [.sub true, .useCarry true], false, ⟨0xffc0, 0x4180, [⟨c! "Rdn", 0, 3⟩, ⟨c! "Rm", 3, 3⟩]⟩⟩ := by
  exact selected_of_head [] Rows.sbcs (by intro f; simp [Case.sbcs, Thumb.sbcs] <;> grind) (by decide +kernel) (by decide +kernel)

theorem adcs : Case.adcs.Selected
    ⟨c! "adcs", .addSub, .adc, [.useCarry true], false, ⟨0xffc0, 0x4140, [⟨c! "Rdn", 0, 3⟩, ⟨c! "Rm", 3, 3⟩]⟩⟩ := by
  exact selected_of_head [] Rows.adcs (by intro f; simp [Case.adcs, Thumb.adcs] <;> grind) (by decide +kernel) (by decide +kernel)

theorem asrsReg : Case.asrsReg.Selected
    ⟨c! "asrs", .shiftOp, .adc, [.type .asr], false, ⟨0xffc0, 0x4100, [⟨c! "Rdn", 0, 3⟩, ⟨c! "Rm", 3, 3⟩]⟩⟩ := by
  exact selected_of_head [] Rows.asrsReg (by intro f; simp [Case.asrsReg, Thumb.asrsReg] <;> grind) (by decide +kernel) (by decide +kernel)

theorem lsrsReg : Case.lsrsReg.Selected
    ⟨c! "lsrs", .shiftOp, .adc, [.type .lsr], false, ⟨0xffc0, 0x40c0, [⟨c! "Rdn", 0, 3⟩, ⟨c! "Rm", 3, 3⟩]⟩⟩ := by
  exact selected_of_head [] Rows.lsrsReg (by intro f; simp [Case.lsrsReg, Thumb.lsrsReg] <;> grind) (by decide +kernel) (by decide +kernel)

theorem lslsReg : Case.lslsReg.Selected
    ⟨c! "lsls", .shiftOp, .adc, [.type .lsl], false, ⟨0xffc0, 0x4080, [⟨c! "Rdn", 0, 3⟩, ⟨c! "Rm", 3, 3⟩]⟩⟩ := by
  exact selected_of_head [] Rows.lslsReg (by intro f; simp [Case.lslsReg, Thumb.lslsReg] <;> grind) (by decide +kernel) (by decide +kernel)

theorem eors : Case.eors.Selected
    ⟨c! "eors", .bitOp, .adc, [.op .xor], false, ⟨0xffc0, 0x4040, [⟨c! "Rdn", 0, 3⟩, ⟨c! "Rm", 3, 3⟩]⟩⟩ := by
  exact selected_of_head [] Rows.eors (by intro f; simp [Case.eors, Thumb.eors] <;> grind) (by decide +kernel) (by decide +kernel)

theorem ands : Case.ands.Selected
    ⟨c! "ands", .bitOp, .adc, [.op .and], false, ⟨0xffc0, 0x4000, [⟨c! "Rdn", 0, 3⟩, ⟨c! "Rm", 3, 3⟩]⟩⟩ := by
  exact selected_of_head [] Rows.ands (by intro f; simp [Case.ands, Thumb.ands] <;> grind) (by decide +kernel) (by decide +kernel)

theorem subsImmT1 : Case.subsImmT1.Selected
    ⟨c! "subs", .addSub, .addImmT1, [.sub true], false, ⟨0xfe00, 0x1e00, [⟨c! "Rd", 0, 3⟩, ⟨c! "Rn", 3, 3⟩, ⟨c! "imm3", 6, 3⟩]⟩⟩ := by
  exact selected_of_head [] Rows.subsImmT1 (by intro f; simp [Case.subsImmT1, Thumb.subsImmT1] <;> grind) (by decide +kernel) (by decide +kernel)

theorem addsImmT1 : Case.addsImmT1.Selected
    ⟨c! "adds", .addSub, .addImmT1, [], false, ⟨0xfe00, 0x1c00, [⟨c! "Rd", 0, 3⟩, ⟨c! "Rn", 3, 3⟩, ⟨c! "imm3", 6, 3⟩]⟩⟩ := by
  exact selected_of_head [] Rows.addsImmT1 (by intro f; simp [Case.addsImmT1, Thumb.addsImmT1] <;> grind) (by decide +kernel) (by decide +kernel)

theorem subsImmT2 : Case.subsImmT2.Selected
    ⟨c! "subs", .addSub, .addImmT2, [.sub true], false, ⟨0xf800, 0x3800, [⟨c! "imm8", 0, 8⟩, ⟨c! "Rdn", 8, 3⟩]⟩⟩ := by
  exact selected_of_head [] Rows.subsImmT2 (by intro f; simp [Case.subsImmT2, Thumb.subsImmT2] <;> grind) (by decide +kernel) (by decide +kernel)

theorem addsImmT2 : Case.addsImmT2.Selected
    ⟨c! "adds", .addSub, .addImmT2, [], false, ⟨0xf800, 0x3000, [⟨c! "imm8", 0, 8⟩, ⟨c! "Rdn", 8, 3⟩]⟩⟩ := by
  exact selected_of_head [] Rows.addsImmT2 (by intro f; simp [Case.addsImmT2, Thumb.addsImmT2] <;> grind) (by decide +kernel) (by decide +kernel)

theorem subsReg : Case.subsReg.Selected
    ⟨c! "subs", .addSub, .addRegT1, [.sub true], false, ⟨0xfe00, 0x1a00, [⟨c! "Rd", 0, 3⟩, ⟨c! "Rn", 3, 3⟩, ⟨c! "Rm", 6, 3⟩]⟩⟩ := by
  exact selected_of_head [] Rows.subsReg (by intro f; simp [Case.subsReg, Thumb.subsReg] <;> grind) (by decide +kernel) (by decide +kernel)

theorem addsReg : Case.addsReg.Selected
    ⟨c! "adds", .addSub, .addRegT1, [], false, ⟨0xfe00, 0x1800, [⟨c! "Rd", 0, 3⟩, ⟨c! "Rn", 3, 3⟩, ⟨c! "Rm", 6, 3⟩]⟩⟩ := by
  exact selected_of_head [] Rows.addsReg (by intro f; simp [Case.addsReg, Thumb.addsReg] <;> grind) (by decide +kernel) (by decide +kernel)

theorem addRegT2 : Case.addRegT2.Selected
    ⟨c! "add", .addSub, .addRegT2, [], false, ⟨0xff00, 0x4400, [⟨c! "Rdn", 0, 3⟩, ⟨c! "Rm", 3, 4⟩, ⟨c! "DN", 7, 1⟩]⟩⟩ := by
  refine selected_of_two
    (e1 := ⟨c! "add", .addSub, .addSpPlusRegT1, [], false, ⟨0xff78, 0x4468, [⟨c! "Rdm", 0, 3⟩, ⟨c! "DM", 7, 1⟩]⟩⟩)
    (e2 := ⟨c! "add", .addSub, .addSpPlusRegT2, [], false, ⟨0xff87, 0x4485, [⟨c! "Rm", 3, 4⟩]⟩⟩) [] Rows.addRegT2 (by intro f; simp [Case.addRegT2, Thumb.addRegT2] <;> grind) (by decide +kernel) (by decide +kernel) ?_ ?_
  · intro w a hf ho hc
    exfalso
    have fm := field_one (pat := Thumb.addRegT2.pat) (c := 'm') 3 4 (by decide) w
    have xm0 := fixed_of_check hc 3 4 (by decide)
    simp only [toNat_append, xm0] at fm
    change Thumb.addRegT2.ok (field Thumb.addRegT2.pat w) = true at ho
    simp [Thumb.addRegT2] at ho fm
    simp [fm] at ho
  · intro w a hf ho hc
    exfalso
    have fd := field_two (pat := Thumb.addRegT2.pat) (c := 'd') 7 1 0 3 (by decide) w
    have xd0 := fixed_of_check hc 7 1 (by decide)
    have xd1 := fixed_of_check hc 0 3 (by decide)
    simp only [toNat_append, xd0, xd1] at fd
    change Thumb.addRegT2.ok (field Thumb.addRegT2.pat w) = true at ho
    simp [Thumb.addRegT2] at ho fd
    simp [fd] at ho

theorem addSpImmT1 : Case.addSpImmT1.Selected
    ⟨c! "add", .addSub, .addSpPlusImmT1, [], false, ⟨0xf800, 0xa800, [⟨c! "imm8", 0, 8⟩, ⟨c! "Rd", 8, 3⟩]⟩⟩ := by
  exact selected_of_head [] Rows.addSpImmT1 (by intro f; simp [Case.addSpImmT1, Thumb.addSpImmT1] <;> grind) (by decide +kernel) (by decide +kernel)

theorem addSpRegT1 : Case.addSpRegT1.Selected
    ⟨c! "add", .addSub, .addSpPlusRegT1, [], false, ⟨0xff78, 0x4468, [⟨c! "Rdm", 0, 3⟩, ⟨c! "DM", 7, 1⟩]⟩⟩ := by
  exact selected_of_head [⟨c! "add", .addSub, .addSpPlusRegT2, [], false, ⟨0xff87, 0x4485, [⟨c! "Rm", 3, 4⟩]⟩⟩,
      ⟨c! "add", .addSub, .addRegT2, [], false, ⟨0xff00, 0x4400, [⟨c! "Rdn", 0, 3⟩, ⟨c! "Rm", 3, 4⟩, ⟨c! "DN", 7, 1⟩]⟩⟩] Rows.addSpRegT1 (by intro f; simp [Case.addSpRegT1, Thumb.addSpRegT1] <;> grind) (by decide +kernel) (by decide +kernel)

theorem addSpRegT2 : Case.addSpRegT2.Selected
    ⟨c! "add", .addSub, .addSpPlusRegT2, [], false, ⟨0xff87, 0x4485, [⟨c! "Rm", 3, 4⟩]⟩⟩ := by
  refine selected_of_one
    (e1 := ⟨c! "add", .addSub, .addSpPlusRegT1, [], false, ⟨0xff78, 0x4468, [⟨c! "Rdm", 0, 3⟩, ⟨c! "DM", 7, 1⟩]⟩⟩) [⟨c! "add", .addSub, .addRegT2, [], false, ⟨0xff00, 0x4400, [⟨c! "Rdn", 0, 3⟩, ⟨c! "Rm", 3, 4⟩, ⟨c! "DN", 7, 1⟩]⟩⟩] Rows.addSpRegT2 (by intro f; simp [Case.addSpRegT2, Thumb.addSpRegT2] <;> grind) (by decide +kernel) (by decide +kernel) ?_
  · intro w a hf ho hc
    exfalso
    have fm := field_one (pat := Thumb.addSpRegT2.pat) (c := 'm') 3 4 (by decide) w
    have xm0 := fixed_of_check hc 3 4 (by decide)
    simp only [toNat_append, xm0] at fm
    change Thumb.addSpRegT2.ok (field Thumb.addSpRegT2.pat w) = true at ho
    simp [Thumb.addSpRegT2] at ho fm
    simp [fm] at ho

theorem subSpImm : Case.subSpImm.Selected
    ⟨c! "sub", .addSub, .addSpPlusImmT2, [.sub true], false, ⟨0xff80, 0xb080, [⟨c! "imm7", 0, 7⟩]⟩⟩ := by
  exact selected_of_head [] Rows.subSpImm (by intro f; simp [Case.subSpImm, Thumb.subSpImm] <;> grind) (by decide +kernel) (by decide +kernel)

theorem addSpImmT2 : Case.addSpImmT2.Selected
    ⟨c! "add", .addSub, .addSpPlusImmT2, [], false, ⟨0xff80, 0xb000, [⟨c! "imm7", 0, 7⟩]⟩⟩ := by
  exact selected_of_head [] Rows.addSpImmT2 (by intro f; simp [Case.addSpImmT2, Thumb.addSpImmT2] <;> grind) (by decide +kernel) (by decide +kernel)

theorem asrsImm : Case.asrsImm.Selected
    ⟨c! "asrs", .shiftOp, .shiftImmT1, [.type .asr], false, ⟨0xf800, 0x1000, [⟨c! "Rd", 0, 3⟩, ⟨c! "Rm", 3, 3⟩, ⟨c! "imm5", 6, 5⟩, ⟨c! "stype", 11, 2⟩]⟩⟩ := by
  exact selected_of_head [] Rows.asrsImm (by intro f; simp [Case.asrsImm, Thumb.asrsImm] <;> grind) (by decide +kernel) (by decide +kernel)

theorem lsrsImm : Case.lsrsImm.Selected
    ⟨c! "lsrs", .shiftOp, .shiftImmT1, [.type .lsr], false, ⟨0xf800, 0x800, [⟨c! "Rd", 0, 3⟩, ⟨c! "Rm", 3, 3⟩, ⟨c! "imm5", 6, 5⟩, ⟨c! "stype", 11, 2⟩]⟩⟩ := by
  exact selected_of_head [] Rows.lsrsImm (by intro f; simp [Case.lsrsImm, Thumb.lsrsImm] <;> grind) (by decide +kernel) (by decide +kernel)

theorem lslsImm : Case.lslsImm.Selected
    ⟨c! "lsls", .shiftOp, .shiftImmT1, [.type .lsl], false, ⟨0xf800, 0x0, [⟨c! "Rd", 0, 3⟩, ⟨c! "Rm", 3, 3⟩, ⟨c! "imm5", 6, 5⟩, ⟨c! "stype", 11, 2⟩]⟩⟩ := by
  refine selected_of_one
    (e1 := ⟨c! "movs", .move, .mov0S, [], false, ⟨0xffc0, 0x0, [⟨c! "Rd", 0, 3⟩, ⟨c! "Rm", 3, 3⟩]⟩⟩) [] Rows.lslsImm (by intro f; simp [Case.lslsImm, Thumb.lslsImm] <;> grind) (by decide +kernel) (by decide +kernel) ?_
  · intro w a hf ho hc
    exfalso
    have fi := field_one (pat := Thumb.lslsImm.pat) (c := 'i') 6 5 (by decide) w
    have xi0 := fixed_of_check hc 6 5 (by decide)
    simp only [toNat_append, xi0] at fi
    change Thumb.lslsImm.ok (field Thumb.lslsImm.pat w) = true at ho
    simp [Thumb.lslsImm] at ho fi
    simp [fi] at ho

theorem rsbs : Case.rsbs.Selected
    ⟨c! "rsbs", .reverseSubtract, .rsb, [], false, ⟨0xffc0, 0x4240, [⟨c! "Rd", 0, 3⟩, ⟨c! "Rn", 3, 3⟩]⟩⟩ := by
  exact selected_of_head [] Rows.rsbs (by intro f; simp [Case.rsbs, Thumb.rsbs] <;> grind) (by decide +kernel) (by decide +kernel)

theorem rsbW : Case.rsbW.Selected
    ⟨c! "rsb", .reverseSubtract, .rsbW, [], true, ⟨0x8000fbe0, 0xf1c0, [⟨c! "Rn", 0, 4⟩, ⟨c! "S", 4, 1⟩, ⟨c! "im", 10, 1⟩, ⟨c! "imm8", 16, 8⟩, ⟨c! "Rd", 24, 4⟩, ⟨c! "imm3", 28, 3⟩]⟩⟩ := by
  exact selected_of_head [] Rows.rsbW (by intro f; simp [Case.rsbW, Thumb.rsbW] <;> grind) (by decide +kernel) (by decide +kernel)

theorem muls : Case.muls.Selected
    ⟨c! "muls", .multiply, .mulT1, [], false, ⟨0xffc0, 0x4340, [⟨c! "Rdm", 0, 3⟩, ⟨c! "Rn", 3, 3⟩]⟩⟩ := by
  exact selected_of_head [] Rows.muls (by intro f; simp [Case.muls, Thumb.muls] <;> grind) (by decide +kernel) (by decide +kernel)

theorem mulW : Case.mulW.Selected
    ⟨c! "mul", .multiply, .mulT2, [], true, ⟨0xf0f0fff0, 0xf000fb00, [⟨c! "Rn", 0, 4⟩, ⟨c! "Rm", 16, 4⟩, ⟨c! "Rd", 24, 4⟩]⟩⟩ := by
  exact selected_of_head [] Rows.mulW (by intro f; simp [Case.mulW, Thumb.mulW] <;> grind) (by decide +kernel) (by decide +kernel)

theorem adrT1 : Case.adrT1.Selected
    ⟨c! "adr", .addressToRegister, .adrT1, [], false, ⟨0xf800, 0xa000, [⟨c! "imm8", 0, 8⟩, ⟨c! "Rd", 8, 3⟩]⟩⟩ := by
  exact selected_of_head [] Rows.adrT1 (by intro f; simp [Case.adrT1, Thumb.adrT1] <;> grind) (by decide +kernel) (by decide +kernel)

theorem adrAddW : Case.adrAddW.Selected
    ⟨c! "adr.w", .addressToRegister, .adrT2, [.add true], true, ⟨0x8000fbff, 0xf20f, [⟨c! "im", 10, 1⟩, ⟨c! "imm8", 16, 8⟩, ⟨c! "Rd", 24, 4⟩, ⟨c! "imm3", 28, 3⟩]⟩⟩ := by
  exact selected_of_head [] Rows.adrAddW (by intro f; simp [Case.adrAddW, Thumb.adrAddW] <;> grind) (by decide +kernel) (by decide +kernel)

theorem adrSubW : Case.adrSubW.Selected
    ⟨c! "adr.w", .addressToRegister, .adrT2, [.add false], true, ⟨0x8000fbff, 0xf2af, [⟨c! "im", 10, 1⟩, ⟨c! "imm8", 16, 8⟩, ⟨c! "Rd", 24, 4⟩, ⟨c! "imm3", 28, 3⟩]⟩⟩ := by
  exact selected_of_head [] Rows.adrSubW (by intro f; simp [Case.adrSubW, Thumb.adrSubW] <;> grind) (by decide +kernel) (by decide +kernel)

theorem uxtb : Case.uxtb.Selected
    ⟨c! "uxtb", .extend, .extend, [.width 8, .signed false], false, ⟨0xffc0, 0xb2c0, [⟨c! "Rd", 0, 3⟩, ⟨c! "Rm", 3, 3⟩]⟩⟩ := by
  exact selected_of_head [] Rows.uxtb (by intro f; simp [Case.uxtb, Thumb.uxtb] <;> grind) (by decide +kernel) (by decide +kernel)

theorem uxth : Case.uxth.Selected
    ⟨c! "uxth", .extend, .extend, [.width 16, .signed false], false, ⟨0xffc0, 0xb280, [⟨c! "Rd", 0, 3⟩, ⟨c! "Rm", 3, 3⟩]⟩⟩ := by
  exact selected_of_head [] Rows.uxth (by intro f; simp [Case.uxth, Thumb.uxth] <;> grind) (by decide +kernel) (by decide +kernel)

theorem sxtb : Case.sxtb.Selected
    ⟨c! "sxtb", .extend, .extend, [.width 8, .signed true], false, ⟨0xffc0, 0xb240, [⟨c! "Rd", 0, 3⟩, ⟨c! "Rm", 3, 3⟩]⟩⟩ := by
  exact selected_of_head [] Rows.sxtb (by intro f; simp [Case.sxtb, Thumb.sxtb] <;> grind) (by decide +kernel) (by decide +kernel)

theorem sxth : Case.sxth.Selected
    ⟨c! "sxth", .extend, .extend, [.width 16, .signed true], false, ⟨0xffc0, 0xb200, [⟨c! "Rd", 0, 3⟩, ⟨c! "Rm", 3, 3⟩]⟩⟩ := by
  exact selected_of_head [] Rows.sxth (by intro f; simp [Case.sxth, Thumb.sxth] <;> grind) (by decide +kernel) (by decide +kernel)

theorem uxtbW : Case.uxtbW.Selected
    ⟨c! "uxtb.w", .extend, .extend2, [.width 8, .signed false], true, ⟨0xf0c0ffff, 0xf080fa5f, [⟨c! "Rm", 16, 4⟩, ⟨c! "rotate", 20, 2⟩, ⟨c! "Rd", 24, 4⟩]⟩⟩ := by
  exact selected_of_head [] Rows.uxtbW (by intro f; simp [Case.uxtbW, Thumb.uxtbW] <;> grind) (by decide +kernel) (by decide +kernel)

theorem uxthW : Case.uxthW.Selected
    ⟨c! "uxth.w", .extend, .extend2, [.width 16, .signed false], true, ⟨0xf0c0ffff, 0xf080fa1f, [⟨c! "Rm", 16, 4⟩, ⟨c! "rotate", 20, 2⟩, ⟨c! "Rd", 24, 4⟩]⟩⟩ := by
  exact selected_of_head [] Rows.uxthW (by intro f; simp [Case.uxthW, Thumb.uxthW] <;> grind) (by decide +kernel) (by decide +kernel)

theorem sxtbW : Case.sxtbW.Selected
    ⟨c! "sxtb.w", .extend, .extend2, [.width 8, .signed true], true, ⟨0xf0c0ffff, 0xf080fa4f, [⟨c! "Rm", 16, 4⟩, ⟨c! "rotate", 20, 2⟩, ⟨c! "Rd", 24, 4⟩]⟩⟩ := by
  exact selected_of_head [] Rows.sxtbW (by intro f; simp [Case.sxtbW, Thumb.sxtbW] <;> grind) (by decide +kernel) (by decide +kernel)

theorem sxthW : Case.sxthW.Selected
    ⟨c! "sxth.w", .extend, .extend2, [.width 16, .signed true], true, ⟨0xf0c0ffff, 0xf080fa0f, [⟨c! "Rm", 16, 4⟩, ⟨c! "rotate", 20, 2⟩, ⟨c! "Rd", 24, 4⟩]⟩⟩ := by
  exact selected_of_head [] Rows.sxthW (by intro f; simp [Case.sxthW, Thumb.sxthW] <;> grind) (by decide +kernel) (by decide +kernel)

theorem revsh : Case.revsh.Selected
    ⟨c! "revsh", .byteReverse, .rev, [.width 2, .signed true], false, ⟨0xffc0, 0xbac0, [⟨c! "Rd", 0, 3⟩, ⟨c! "Rm", 3, 3⟩]⟩⟩ := by
  exact selected_of_head [] Rows.revsh (by intro f; simp [Case.revsh, Thumb.revsh] <;> grind) (by decide +kernel) (by decide +kernel)

theorem rev16 : Case.rev16.Selected
    ⟨c! "rev16", .byteReverse, .rev, [.width 2, .signed false], false, ⟨0xffc0, 0xba40, [⟨c! "Rd", 0, 3⟩, ⟨c! "Rm", 3, 3⟩]⟩⟩ := by
  exact selected_of_head [] Rows.rev16 (by intro f; simp [Case.rev16, Thumb.rev16] <;> grind) (by decide +kernel) (by decide +kernel)

theorem rev : Case.rev.Selected
    ⟨c! "rev", .byteReverse, .rev, [.width 4, .signed false], false, ⟨0xffc0, 0xba00, [⟨c! "Rd", 0, 3⟩, ⟨c! "Rm", 3, 3⟩]⟩⟩ := by
  exact selected_of_head [] Rows.rev (by intro f; simp [Case.rev, Thumb.rev] <;> grind) (by decide +kernel) (by decide +kernel)

theorem revshW : Case.revshW.Selected
    ⟨c! "revsh.w", .byteReverse, .revW, [.width 2, .signed true], true, ⟨0xf0f0fff0, 0xf0b0fa90, [⟨c! "Rm1", 0, 4⟩, ⟨c! "Rm2", 16, 4⟩, ⟨c! "Rd", 24, 4⟩]⟩⟩ := by
  exact selected_of_head [] Rows.revshW (by intro f; simp [Case.revshW, Thumb.revshW] <;> grind) (by decide +kernel) (by decide +kernel)

theorem rev16W : Case.rev16W.Selected
    ⟨c! "rev16.w", .byteReverse, .revW, [.width 2, .signed false], true, ⟨0xf0f0fff0, 0xf090fa90, [⟨c! "Rm1", 0, 4⟩, ⟨c! "Rm2", 16, 4⟩, ⟨c! "Rd", 24, 4⟩]⟩⟩ := by
  exact selected_of_head [] Rows.rev16W (by intro f; simp [Case.rev16W, Thumb.rev16W] <;> grind) (by decide +kernel) (by decide +kernel)

theorem revW : Case.revW.Selected
    ⟨c! "rev.w", .byteReverse, .revW, [.width 4, .signed false], true, ⟨0xf0f0fff0, 0xf080fa90, [⟨c! "Rm1", 0, 4⟩, ⟨c! "Rm2", 16, 4⟩, ⟨c! "Rd", 24, 4⟩]⟩⟩ := by
  exact selected_of_head [] Rows.revW (by intro f; simp [Case.revW, Thumb.revW] <;> grind) (by decide +kernel) (by decide +kernel)

theorem movReg : Case.movReg.Selected
    ⟨c! "mov", .move, .mov0, [], false, ⟨0xff00, 0x4600, [⟨c! "Rd", 0, 3⟩, ⟨c! "Rm", 3, 4⟩, ⟨c! "D", 7, 1⟩]⟩⟩ := by
  exact selected_of_head [] Rows.movReg (by intro f; simp [Case.movReg, Thumb.movReg] <;> grind) (by decide +kernel) (by decide +kernel)

theorem movsReg : Case.movsReg.Selected
    ⟨c! "movs", .move, .mov0S, [], false, ⟨0xffc0, 0x0, [⟨c! "Rd", 0, 3⟩, ⟨c! "Rm", 3, 3⟩]⟩⟩ := by
  exact selected_of_head [⟨c! "lsls", .shiftOp, .shiftImmT1, [.type .lsl], false, ⟨0xf800, 0x0, [⟨c! "Rd", 0, 3⟩, ⟨c! "Rm", 3, 3⟩, ⟨c! "imm5", 6, 5⟩, ⟨c! "stype", 11, 2⟩]⟩⟩] Rows.movsReg (by intro f; simp [Case.movsReg, Thumb.movsReg] <;> grind) (by decide +kernel) (by decide +kernel)

theorem movRegW : Case.movRegW.Selected
    ⟨c! "mov", .move, .movRegT3, [], true, ⟨0xf0f0ffef, 0xea4f, [⟨c! "S", 4, 1⟩, ⟨c! "Rm", 16, 4⟩, ⟨c! "Rd", 24, 4⟩]⟩⟩ := by
  exact selected_of_head [] Rows.movRegW (by intro f; simp [Case.movRegW, Thumb.movRegW] <;> grind) (by decide +kernel) (by decide +kernel)

theorem movsImm : Case.movsImm.Selected
    ⟨c! "movs", .move, .mov1, [], false, ⟨0xf800, 0x2000, [⟨c! "imm8", 0, 8⟩, ⟨c! "Rd", 8, 3⟩]⟩⟩ := by
  exact selected_of_head [] Rows.movsImm (by intro f; simp [Case.movsImm, Thumb.movsImm] <;> grind) (by decide +kernel) (by decide +kernel)

theorem movImmW : Case.movImmW.Selected
    ⟨c! "mov", .move, .mov2, [], true, ⟨0x8000fbef, 0xf04f, [⟨c! "S", 4, 1⟩, ⟨c! "im", 10, 1⟩, ⟨c! "imm8", 16, 8⟩, ⟨c! "Rd", 24, 4⟩, ⟨c! "imm3", 28, 3⟩]⟩⟩ := by
  exact selected_of_head [] Rows.movImmW (by intro f; simp [Case.movImmW, Thumb.movImmW] <;> grind) (by decide +kernel) (by decide +kernel)

theorem movw : Case.movw.Selected
    ⟨c! "movw", .move, .movw, [], true, ⟨0x8000fbf0, 0xf240, [⟨c! "imm4", 0, 4⟩, ⟨c! "im", 10, 1⟩, ⟨c! "imm8", 16, 8⟩, ⟨c! "Rd", 24, 4⟩, ⟨c! "imm3", 28, 3⟩]⟩⟩ := by
  exact selected_of_head [] Rows.movw (by intro f; simp [Case.movw, Thumb.movw] <;> grind) (by decide +kernel) (by decide +kernel)

theorem mvns : Case.mvns.Selected
    ⟨c! "mvns", .move, .mvn, [.negate true], false, ⟨0xffc0, 0x43c0, [⟨c! "Rd", 0, 3⟩, ⟨c! "Rm", 3, 3⟩]⟩⟩ := by
  exact selected_of_head [] Rows.mvns (by intro f; simp [Case.mvns, Thumb.mvns] <;> grind) (by decide +kernel) (by decide +kernel)

theorem mvnW : Case.mvnW.Selected
    ⟨c! "mvn", .shiftedMoveNegate, .mvnw, [], true, ⟨0x8000ffef, 0xea6f, [⟨c! "S", 4, 1⟩, ⟨c! "Rm", 16, 4⟩, ⟨c! "type", 20, 2⟩, ⟨c! "imm2", 22, 2⟩, ⟨c! "Rd", 24, 4⟩, ⟨c! "imm3", 28, 3⟩]⟩⟩ := by
  exact selected_of_head [] Rows.mvnW (by intro f; simp [Case.mvnW, Thumb.mvnW] <;> grind) (by decide +kernel) (by decide +kernel)

theorem cmpImm : Case.cmpImm.Selected
    ⟨c! "cmp", .compare, .cmp1, [], false, ⟨0xf800, 0x2800, [⟨c! "imm8", 0, 8⟩, ⟨c! "Rn", 8, 3⟩]⟩⟩ := by
  exact selected_of_head [] Rows.cmpImm (by intro f; simp [Case.cmpImm, Thumb.cmpImm] <;> grind) (by decide +kernel) (by decide +kernel)

theorem cmnReg : Case.cmnReg.Selected
    ⟨c! "cmn", .compare, .cmp3, [.negate false], false, ⟨0xffc0, 0x42c0, [⟨c! "Rn", 0, 3⟩, ⟨c! "Rm", 3, 3⟩]⟩⟩ := by
  exact selected_of_head [] Rows.cmnReg (by intro f; simp [Case.cmnReg, Thumb.cmnReg] <;> grind) (by decide +kernel) (by decide +kernel)

theorem cmpRegT1 : Case.cmpRegT1.Selected
    ⟨c! "cmp", .compare, .cmp3, [], false, ⟨0xffc0, 0x4280, [⟨c! "Rn", 0, 3⟩, ⟨c! "Rm", 3, 3⟩]⟩⟩ := by
  exact selected_of_head [] Rows.cmpRegT1 (by intro f; simp [Case.cmpRegT1, Thumb.cmpRegT1] <;> grind) (by decide +kernel) (by decide +kernel)

theorem cmpRegT2 : Case.cmpRegT2.Selected
    ⟨c! "cmp", .compare, .cmp4, [], false, ⟨0xff00, 0x4500, [⟨c! "Rn", 0, 3⟩, ⟨c! "Rm", 3, 4⟩, ⟨c! "N", 7, 1⟩]⟩⟩ := by
  exact selected_of_head [] Rows.cmpRegT2 (by intro f; simp [Case.cmpRegT2, Thumb.cmpRegT2] <;> grind) (by decide +kernel) (by decide +kernel)

theorem cmnImm : Case.cmnImm.Selected
    ⟨c! "cmn", .compare, .cmp2, [.negate false], true, ⟨0x8f00fbf0, 0xf00f110, [⟨c! "Rn", 0, 4⟩, ⟨c! "im", 10, 1⟩, ⟨c! "imm8", 16, 8⟩, ⟨c! "imm3", 28, 3⟩]⟩⟩ := by
  exact selected_of_head [] Rows.cmnImm (by intro f; simp [Case.cmnImm, Thumb.cmnImm] <;> grind) (by decide +kernel) (by decide +kernel)

theorem cmpImmW : Case.cmpImmW.Selected
    ⟨c! "cmp.w", .compare, .cmp2, [], true, ⟨0x8f00fbf0, 0xf00f1b0, [⟨c! "Rn", 0, 4⟩, ⟨c! "im", 10, 1⟩, ⟨c! "imm8", 16, 8⟩, ⟨c! "imm3", 28, 3⟩]⟩⟩ := by
  exact selected_of_head [] Rows.cmpImmW (by intro f; simp [Case.cmpImmW, Thumb.cmpImmW] <;> grind) (by decide +kernel) (by decide +kernel)

theorem tst : Case.tst.Selected
    ⟨c! "tst", .test, .tst, [], false, ⟨0xffc0, 0x4200, [⟨c! "Rn", 0, 3⟩, ⟨c! "Rm", 3, 3⟩]⟩⟩ := by
  exact selected_of_head [] Rows.tst (by intro f; simp [Case.tst, Thumb.tst] <;> grind) (by decide +kernel) (by decide +kernel)

theorem tstW : Case.tstW.Selected
    ⟨c! "tst.w", .test, .tstW, [], true, ⟨0x8f00fff0, 0xf00ea10, [⟨c! "Rn", 0, 4⟩, ⟨c! "Rm", 16, 4⟩, ⟨c! "type", 20, 2⟩, ⟨c! "imm2", 22, 2⟩, ⟨c! "imm3", 28, 3⟩]⟩⟩ := by
  exact selected_of_head [] Rows.tstW (by intro f; simp [Case.tstW, Thumb.tstW] <;> grind) (by decide +kernel) (by decide +kernel)

theorem bCond : Case.bCond.Selected
    ⟨c! "b", .branch, .bT1, [], false, ⟨0xf000, 0xd000, [⟨c! "imm8", 0, 8⟩, ⟨c! "cond", 8, 4⟩]⟩⟩ := by
  refine selected_of_two
    (e1 := ⟨c! "svc", .instruction, .udfT1, [], false, ⟨0xff00, 0xdf00, [⟨c! "imm8", 0, 8⟩]⟩⟩)
    (e2 := ⟨c! "udf", .instruction, .udfT1, [], false, ⟨0xff00, 0xde00, [⟨c! "imm8", 0, 8⟩]⟩⟩) [] Rows.bCond (by intro f; simp [Case.bCond, Thumb.bCond] <;> grind) (by decide +kernel) (by decide +kernel) ?_ ?_
  · intro w a hf ho hc
    exfalso
    have fc := field_one (pat := Thumb.bCond.pat) (c := 'c') 8 4 (by decide) w
    have xc0 := fixed_of_check hc 8 4 (by decide)
    simp only [toNat_append, xc0] at fc
    change Thumb.bCond.ok (field Thumb.bCond.pat w) = true at ho
    simp [Thumb.bCond] at ho fc
    simp [fc] at ho
  · intro w a hf ho hc
    exfalso
    have fc := field_one (pat := Thumb.bCond.pat) (c := 'c') 8 4 (by decide) w
    have xc0 := fixed_of_check hc 8 4 (by decide)
    simp only [toNat_append, xc0] at fc
    change Thumb.bCond.ok (field Thumb.bCond.pat w) = true at ho
    simp [Thumb.bCond] at ho fc
    simp [fc] at ho

theorem b : Case.b.Selected
    ⟨c! "b", .branch, .bT2, [], false, ⟨0xf800, 0xe000, [⟨c! "imm11", 0, 11⟩]⟩⟩ := by
  exact selected_of_head [] Rows.b (by intro f; simp [Case.b, Thumb.b] <;> grind) (by decide +kernel) (by decide +kernel)

theorem bl : Case.bl.Selected
    ⟨c! "bl", .branch, .blT1, [], true, ⟨0xd000f800, 0xd000f000, [⟨c! "imm10", 0, 10⟩, ⟨c! "S", 10, 1⟩, ⟨c! "imm11", 16, 11⟩, ⟨c! "J2", 27, 1⟩, ⟨c! "J1", 29, 1⟩]⟩⟩ := by
  exact selected_of_head [] Rows.bl (by intro f; simp [Case.bl, Thumb.bl] <;> grind) (by decide +kernel) (by decide +kernel)

theorem blx : Case.blx.Selected
    ⟨c! "blx", .branch, .blxT1, [], false, ⟨0xff87, 0x4780, [⟨c! "Rm", 3, 4⟩]⟩⟩ := by
  exact selected_of_head [] Rows.blx (by intro f; simp [Case.blx, Thumb.blx] <;> grind) (by decide +kernel) (by decide +kernel)

theorem bx : Case.bx.Selected
    ⟨c! "bx", .branch, .bxT1, [], false, ⟨0xff87, 0x4700, [⟨c! "Rm", 3, 4⟩]⟩⟩ := by
  exact selected_of_head [] Rows.bx (by intro f; simp [Case.bx, Thumb.bx] <;> grind) (by decide +kernel) (by decide +kernel)

theorem ldrshReg : Case.ldrshReg.Selected
    ⟨c! "ldrsh", .load, .ldrStrReg, [.memsize 16, .signed true], false, ⟨0xfe00, 0x5e00, [⟨c! "Rt", 0, 3⟩, ⟨c! "Rn", 3, 3⟩, ⟨c! "Rm", 6, 3⟩]⟩⟩ := by
  exact selected_of_head [] Rows.ldrshReg (by intro f; simp [Case.ldrshReg, Thumb.ldrshReg] <;> grind) (by decide +kernel) (by decide +kernel)

theorem ldrbReg : Case.ldrbReg.Selected
    ⟨c! "ldrb", .load, .ldrStrReg, [.memsize 8], false, ⟨0xfe00, 0x5c00, [⟨c! "Rt", 0, 3⟩, ⟨c! "Rn", 3, 3⟩, ⟨c! "Rm", 6, 3⟩]⟩⟩ := by
  exact selected_of_head [] Rows.ldrbReg (by intro f; simp [Case.ldrbReg, Thumb.ldrbReg] <;> grind) (by decide +kernel) (by decide +kernel)

theorem ldrhReg : Case.ldrhReg.Selected
    ⟨c! "ldrh", .load, .ldrStrReg, [.memsize 16], false, ⟨0xfe00, 0x5a00, [⟨c! "Rt", 0, 3⟩, ⟨c! "Rn", 3, 3⟩, ⟨c! "Rm", 6, 3⟩]⟩⟩ := by
  exact selected_of_head [] Rows.ldrhReg (by intro f; simp [Case.ldrhReg, Thumb.ldrhReg] <;> grind) (by decide +kernel) (by decide +kernel)

theorem ldrReg : Case.ldrReg.Selected
    ⟨c! "ldr", .load, .ldrStrReg, [.memsize 32], false, ⟨0xfe00, 0x5800, [⟨c! "Rt", 0, 3⟩, ⟨c! "Rn", 3, 3⟩, ⟨c! "Rm", 6, 3⟩]⟩⟩ := by
  exact selected_of_head [] Rows.ldrReg (by intro f; simp [Case.ldrReg, Thumb.ldrReg] <;> grind) (by decide +kernel) (by decide +kernel)

theorem ldrsbReg : Case.ldrsbReg.Selected
    ⟨c! "ldrsb", .load, .ldrStrReg, [.memsize 8, .signed true], false, ⟨0xfe00, 0x5600, [⟨c! "Rt", 0, 3⟩, ⟨c! "Rn", 3, 3⟩, ⟨c! "Rm", 6, 3⟩]⟩⟩ := by
  exact selected_of_head [] Rows.ldrsbReg (by intro f; simp [Case.ldrsbReg, Thumb.ldrsbReg] <;> grind) (by decide +kernel) (by decide +kernel)

theorem strbReg : Case.strbReg.Selected
    ⟨c! "strb", .store, .ldrStrReg, [.memsize 8], false, ⟨0xfe00, 0x5400, [⟨c! "Rt", 0, 3⟩, ⟨c! "Rn", 3, 3⟩, ⟨c! "Rm", 6, 3⟩]⟩⟩ := by
  exact selected_of_head [] Rows.strbReg (by intro f; simp [Case.strbReg, Thumb.strbReg] <;> grind) (by decide +kernel) (by decide +kernel)

theorem strhReg : Case.strhReg.Selected
    ⟨c! "strh", .store, .ldrStrReg, [.memsize 16], false, ⟨0xfe00, 0x5200, [⟨c! "Rt", 0, 3⟩, ⟨c! "Rn", 3, 3⟩, ⟨c! "Rm", 6, 3⟩]⟩⟩ := by
  exact selected_of_head [] Rows.strhReg (by intro f; simp [Case.strhReg, Thumb.strhReg] <;> grind) (by decide +kernel) (by decide +kernel)

theorem strReg : Case.strReg.Selected
    ⟨c! "str", .store, .ldrStrReg, [.memsize 32], false, ⟨0xfe00, 0x5000, [⟨c! "Rt", 0, 3⟩, ⟨c! "Rn", 3, 3⟩, ⟨c! "Rm", 6, 3⟩]⟩⟩ := by
  exact selected_of_head [] Rows.strReg (by intro f; simp [Case.strReg, Thumb.strReg] <;> grind) (by decide +kernel) (by decide +kernel)

theorem strRegW : Case.strRegW.Selected
    ⟨c! "str.w", .store, .ldrStrRegT2, [.memsize 32], true, ⟨0xfc0fff0, 0xf840, [⟨c! "Rn", 0, 4⟩, ⟨c! "Rm", 16, 4⟩, ⟨c! "imm2", 20, 2⟩, ⟨c! "Rt", 28, 4⟩]⟩⟩ := by
  exact selected_of_head [] Rows.strRegW (by intro f; simp [Case.strRegW, Thumb.strRegW] <;> grind) (by decide +kernel) (by decide +kernel)

theorem strhRegW : Case.strhRegW.Selected
    ⟨c! "strh.w", .store, .ldrStrRegT2, [.memsize 16], true, ⟨0xfc0fff0, 0xf820, [⟨c! "Rn", 0, 4⟩, ⟨c! "Rm", 16, 4⟩, ⟨c! "imm2", 20, 2⟩, ⟨c! "Rt", 28, 4⟩]⟩⟩ := by
  exact selected_of_head [] Rows.strhRegW (by intro f; simp [Case.strhRegW, Thumb.strhRegW] <;> grind) (by decide +kernel) (by decide +kernel)

theorem strbRegW : Case.strbRegW.Selected
    ⟨c! "strb.w", .store, .ldrStrRegT2, [.memsize 8], true, ⟨0xfc0fff0, 0xf800, [⟨c! "Rn", 0, 4⟩, ⟨c! "Rm", 16, 4⟩, ⟨c! "imm2", 20, 2⟩, ⟨c! "Rt", 28, 4⟩]⟩⟩ := by
  exact selected_of_head [] Rows.strbRegW (by intro f; simp [Case.strbRegW, Thumb.strbRegW] <;> grind) (by decide +kernel) (by decide +kernel)

theorem ldrshRegW : Case.ldrshRegW.Selected
    ⟨c! "ldrsh.w", .load, .ldrStrRegT2, [.memsize 16, .signed true], true, ⟨0xfc0fff0, 0xf930, [⟨c! "Rn", 0, 4⟩, ⟨c! "Rm", 16, 4⟩, ⟨c! "imm2", 20, 2⟩, ⟨c! "Rt", 28, 4⟩]⟩⟩ := by
  exact selected_of_head [⟨c! "ldrsh.w", .loadLiteral, .ldrLiteralW, [.memsize 16, .signed true], true, ⟨0xff7f, 0xf93f, [⟨c! "U", 7, 1⟩, ⟨c! "imm12", 16, 12⟩, ⟨c! "Rt", 28, 4⟩]⟩⟩] Rows.ldrshRegW (by intro f; simp [Case.ldrshRegW, Thumb.ldrshRegW] <;> grind) (by decide +kernel) (by decide +kernel)

theorem ldrsbRegW : Case.ldrsbRegW.Selected
    ⟨c! "ldrsb.w", .load, .ldrStrRegT2, [.memsize 8, .signed true], true, ⟨0xfc0fff0, 0xf910, [⟨c! "Rn", 0, 4⟩, ⟨c! "Rm", 16, 4⟩, ⟨c! "imm2", 20, 2⟩, ⟨c! "Rt", 28, 4⟩]⟩⟩ := by
  exact selected_of_head [⟨c! "ldrsb.w", .loadLiteral, .ldrLiteralW, [.memsize 8, .signed true], true, ⟨0xff7f, 0xf91f, [⟨c! "U", 7, 1⟩, ⟨c! "imm12", 16, 12⟩, ⟨c! "Rt", 28, 4⟩]⟩⟩] Rows.ldrsbRegW (by intro f; simp [Case.ldrsbRegW, Thumb.ldrsbRegW] <;> grind) (by decide +kernel) (by decide +kernel)

theorem ldrRegW : Case.ldrRegW.Selected
    ⟨c! "ldr.w", .load, .ldrStrRegT2, [.memsize 32], true, ⟨0xfc0fff0, 0xf850, [⟨c! "Rn", 0, 4⟩, ⟨c! "Rm", 16, 4⟩, ⟨c! "imm2", 20, 2⟩, ⟨c! "Rt", 28, 4⟩]⟩⟩ := by
  exact selected_of_head [⟨c! "ldr.w", .loadLiteral, .ldrLiteralW, [.memsize 32], true, ⟨0xff7f, 0xf85f, [⟨c! "U", 7, 1⟩, ⟨c! "imm12", 16, 12⟩, ⟨c! "Rt", 28, 4⟩]⟩⟩] Rows.ldrRegW (by intro f; simp [Case.ldrRegW, Thumb.ldrRegW] <;> grind) (by decide +kernel) (by decide +kernel)

theorem ldrhRegW : Case.ldrhRegW.Selected
    ⟨c! "ldrh.w", .load, .ldrStrRegT2, [.memsize 16], true, ⟨0xfc0fff0, 0xf830, [⟨c! "Rn", 0, 4⟩, ⟨c! "Rm", 16, 4⟩, ⟨c! "imm2", 20, 2⟩, ⟨c! "Rt", 28, 4⟩]⟩⟩ := by
  exact selected_of_head [⟨c! "ldrh.w", .loadLiteral, .ldrLiteralW, [.memsize 16], true, ⟨0xff7f, 0xf83f, [⟨c! "U", 7, 1⟩, ⟨c! "imm12", 16, 12⟩, ⟨c! "Rt", 28, 4⟩]⟩⟩] Rows.ldrhRegW (by intro f; simp [Case.ldrhRegW, Thumb.ldrhRegW] <;> grind) (by decide +kernel) (by decide +kernel)

theorem ldrbRegW : Case.ldrbRegW.Selected
    ⟨c! "ldrb.w", .load, .ldrStrRegT2, [.memsize 8], true, ⟨0xfc0fff0, 0xf810, [⟨c! "Rn", 0, 4⟩, ⟨c! "Rm", 16, 4⟩, ⟨c! "imm2", 20, 2⟩, ⟨c! "Rt", 28, 4⟩]⟩⟩ := by
  exact selected_of_head [⟨c! "ldrb.w", .loadLiteral, .ldrLiteralW, [.memsize 8], true, ⟨0xff7f, 0xf81f, [⟨c! "U", 7, 1⟩, ⟨c! "imm12", 16, 12⟩, ⟨c! "Rt", 28, 4⟩]⟩⟩] Rows.ldrbRegW (by intro f; simp [Case.ldrbRegW, Thumb.ldrbRegW] <;> grind) (by decide +kernel) (by decide +kernel)

theorem ldrhImm : Case.ldrhImm.Selected
    ⟨c! "ldrh", .load, .ldrStrImm, [.memsize 16], false, ⟨0xf800, 0x8800, [⟨c! "Rt", 0, 3⟩, ⟨c! "Rn", 3, 3⟩, ⟨c! "imm5", 6, 5⟩]⟩⟩ := by
  exact selected_of_head [] Rows.ldrhImm (by intro f; simp [Case.ldrhImm, Thumb.ldrhImm] <;> grind) (by decide +kernel) (by decide +kernel)

theorem strhImm : Case.strhImm.Selected
    ⟨c! "strh", .store, .ldrStrImm, [.memsize 16], false, ⟨0xf800, 0x8000, [⟨c! "Rt", 0, 3⟩, ⟨c! "Rn", 3, 3⟩, ⟨c! "imm5", 6, 5⟩]⟩⟩ := by
  exact selected_of_head [] Rows.strhImm (by intro f; simp [Case.strhImm, Thumb.strhImm] <;> grind) (by decide +kernel) (by decide +kernel)

theorem ldrbImm : Case.ldrbImm.Selected
    ⟨c! "ldrb", .load, .ldrStrImm, [.memsize 8], false, ⟨0xf800, 0x7800, [⟨c! "Rt", 0, 3⟩, ⟨c! "Rn", 3, 3⟩, ⟨c! "imm5", 6, 5⟩]⟩⟩ := by
  exact selected_of_head [] Rows.ldrbImm (by intro f; simp [Case.ldrbImm, Thumb.ldrbImm] <;> grind) (by decide +kernel) (by decide +kernel)

theorem strbImm : Case.strbImm.Selected
    ⟨c! "strb", .store, .ldrStrImm, [.memsize 8], false, ⟨0xf800, 0x7000, [⟨c! "Rt", 0, 3⟩, ⟨c! "Rn", 3, 3⟩, ⟨c! "imm5", 6, 5⟩]⟩⟩ := by
  exact selected_of_head [] Rows.strbImm (by intro f; simp [Case.strbImm, Thumb.strbImm] <;> grind) (by decide +kernel) (by decide +kernel)

theorem ldrImm : Case.ldrImm.Selected
    ⟨c! "ldr", .load, .ldrStrImm, [.memsize 32], false, ⟨0xf800, 0x6800, [⟨c! "Rt", 0, 3⟩, ⟨c! "Rn", 3, 3⟩, ⟨c! "imm5", 6, 5⟩]⟩⟩ := by
  exact selected_of_head [] Rows.ldrImm (by intro f; simp [Case.ldrImm, Thumb.ldrImm] <;> grind) (by decide +kernel) (by decide +kernel)

theorem strImm : Case.strImm.Selected
    ⟨c! "str", .store, .ldrStrImm, [.memsize 32], false, ⟨0xf800, 0x6000, [⟨c! "Rt", 0, 3⟩, ⟨c! "Rn", 3, 3⟩, ⟨c! "imm5", 6, 5⟩]⟩⟩ := by
  exact selected_of_head [] Rows.strImm (by intro f; simp [Case.strImm, Thumb.strImm] <;> grind) (by decide +kernel) (by decide +kernel)

theorem ldrLit : Case.ldrLit.Selected
    ⟨c! "ldr", .loadLiteral, .ldrLiteral, [.memsize 32], false, ⟨0xf800, 0x4800, [⟨c! "imm8", 0, 8⟩, ⟨c! "Rt", 8, 3⟩]⟩⟩ := by
  exact selected_of_head [] Rows.ldrLit (by intro f; simp [Case.ldrLit, Thumb.ldrLit] <;> grind) (by decide +kernel) (by decide +kernel)

theorem ldrsbLitW : Case.ldrsbLitW.Selected
    ⟨c! "ldrsb.w", .loadLiteral, .ldrLiteralW, [.memsize 8, .signed true], true, ⟨0xff7f, 0xf91f, [⟨c! "U", 7, 1⟩, ⟨c! "imm12", 16, 12⟩, ⟨c! "Rt", 28, 4⟩]⟩⟩ := by
  refine selected_of_one
    (e1 := ⟨c! "ldrsb.w", .load, .ldrStrRegT2, [.memsize 8, .signed true], true, ⟨0xfc0fff0, 0xf910, [⟨c! "Rn", 0, 4⟩, ⟨c! "Rm", 16, 4⟩, ⟨c! "imm2", 20, 2⟩, ⟨c! "Rt", 28, 4⟩]⟩⟩) [] Rows.ldrsbLitW (by intro f; simp [Case.ldrsbLitW, Thumb.ldrsbLitW] <;> grind) (by decide +kernel) (by decide +kernel) ?_
  · intro w a hf ho hc
    refine (Rows.ldrsbRegW w a ((check_iff_fits (by decide +kernel) w).mp hc)).1 _ ?_
    have fn := field_one (pat := Thumb.ldrsbRegW.pat) (c := 'n') 0 4 (by decide) w
    have xn := fixed_of_check (d := ⟨c! "ldrsb.w", .loadLiteral, .ldrLiteralW, [.memsize 8, .signed true], true, ⟨0xff7f, 0xf91f, [⟨c! "U", 7, 1⟩, ⟨c! "imm12", 16, 12⟩, ⟨c! "Rt", 28, 4⟩]⟩⟩) ((check_iff_fits (by decide +kernel) w).mpr hf) 0 4 (by decide)
    rw [xn] at fn
    change (if field Thumb.ldrsbRegW.pat w 'n' = 15 then some PyErr.decodeError else none) = _
    exact if_pos fn

theorem ldrshLitW : Case.ldrshLitW.Selected
    ⟨c! "ldrsh.w", .loadLiteral, .ldrLiteralW, [.memsize 16, .signed true], true, ⟨0xff7f, 0xf93f, [⟨c! "U", 7, 1⟩, ⟨c! "imm12", 16, 12⟩, ⟨c! "Rt", 28, 4⟩]⟩⟩ := by
  refine selected_of_one
    (e1 := ⟨c! "ldrsh.w", .load, .ldrStrRegT2, [.memsize 16, .signed true], true, ⟨0xfc0fff0, 0xf930, [⟨c! "Rn", 0, 4⟩, ⟨c! "Rm", 16, 4⟩, ⟨c! "imm2", 20, 2⟩, ⟨c! "Rt", 28, 4⟩]⟩⟩) [] Rows.ldrshLitW (by intro f; simp [Case.ldrshLitW, Thumb.ldrshLitW] <;> grind) (by decide +kernel) (by decide +kernel) ?_
  · intro w a hf ho hc
    refine (Rows.ldrshRegW w a ((check_iff_fits (by decide +kernel) w).mp hc)).1 _ ?_
    have fn := field_one (pat := Thumb.ldrshRegW.pat) (c := 'n') 0 4 (by decide) w
    have xn := fixed_of_check (d := ⟨c! "ldrsh.w", .loadLiteral, .ldrLiteralW, [.memsize 16, .signed true], true, ⟨0xff7f, 0xf93f, [⟨c! "U", 7, 1⟩, ⟨c! "imm12", 16, 12⟩, ⟨c! "Rt", 28, 4⟩]⟩⟩) ((check_iff_fits (by decide +kernel) w).mpr hf) 0 4 (by decide)
    rw [xn] at fn
    change (if field Thumb.ldrshRegW.pat w 'n' = 15 then some PyErr.decodeError else none) = _
    exact if_pos fn

theorem ldrbLitW : Case.ldrbLitW.Selected
    ⟨c! "ldrb.w", .loadLiteral, .ldrLiteralW, [.memsize 8], true, ⟨0xff7f, 0xf81f, [⟨c! "U", 7, 1⟩, ⟨c! "imm12", 16, 12⟩, ⟨c! "Rt", 28, 4⟩]⟩⟩ := by
  refine selected_of_one
    (e1 := ⟨c! "ldrb.w", .load, .ldrStrRegT2, [.memsize 8], true, ⟨0xfc0fff0, 0xf810, [⟨c! "Rn", 0, 4⟩, ⟨c! "Rm", 16, 4⟩, ⟨c! "imm2", 20, 2⟩, ⟨c! "Rt", 28, 4⟩]⟩⟩) [] Rows.ldrbLitW (by intro f; simp [Case.ldrbLitW, Thumb.ldrbLitW] <;> grind) (by decide +kernel) (by decide +kernel) ?_
  · intro w a hf ho hc
    refine (Rows.ldrbRegW w a ((check_iff_fits (by decide +kernel) w).mp hc)).1 _ ?_
    have fn := field_one (pat := Thumb.ldrbRegW.pat) (c := 'n') 0 4 (by decide) w
    have xn := fixed_of_check (d := ⟨c! "ldrb.w", .loadLiteral, .ldrLiteralW, [.memsize 8], true, ⟨0xff7f, 0xf81f, [⟨c! "U", 7, 1⟩, ⟨c! "imm12", 16, 12⟩, ⟨c! "Rt", 28, 4⟩]⟩⟩) ((check_iff_fits (by decide +kernel) w).mpr hf) 0 4 (by decide)
    rw [xn] at fn
    change (if field Thumb.ldrbRegW.pat w 'n' = 15 then some PyErr.decodeError else none) = _
    exact if_pos fn

theorem ldrhLitW : Case.ldrhLitW.Selected
    ⟨c! "ldrh.w", .loadLiteral, .ldrLiteralW, [.memsize 16], true, ⟨0xff7f, 0xf83f, [⟨c! "U", 7, 1⟩, ⟨c! "imm12", 16, 12⟩, ⟨c! "Rt", 28, 4⟩]⟩⟩ := by
  refine selected_of_one
    (e1 := ⟨c! "ldrh.w", .load, .ldrStrRegT2, [.memsize 16], true, ⟨0xfc0fff0, 0xf830, [⟨c! "Rn", 0, 4⟩, ⟨c! "Rm", 16, 4⟩, ⟨c! "imm2", 20, 2⟩, ⟨c! "Rt", 28, 4⟩]⟩⟩) [] Rows.ldrhLitW (by intro f; simp [Case.ldrhLitW, Thumb.ldrhLitW] <;> grind) (by decide +kernel) (by decide +kernel) ?_
  · intro w a hf ho hc
    refine (Rows.ldrhRegW w a ((check_iff_fits (by decide +kernel) w).mp hc)).1 _ ?_
    have fn := field_one (pat := Thumb.ldrhRegW.pat) (c := 'n') 0 4 (by decide) w
    have xn := fixed_of_check (d := ⟨c! "ldrh.w", .loadLiteral, .ldrLiteralW, [.memsize 16], true, ⟨0xff7f, 0xf83f, [⟨c! "U", 7, 1⟩, ⟨c! "imm12", 16, 12⟩, ⟨c! "Rt", 28, 4⟩]⟩⟩) ((check_iff_fits (by decide +kernel) w).mpr hf) 0 4 (by decide)
    rw [xn] at fn
    change (if field Thumb.ldrhRegW.pat w 'n' = 15 then some PyErr.decodeError else none) = _
    exact if_pos fn

theorem ldrLitW : Case.ldrLitW.Selected
    ⟨c! "ldr.w", .loadLiteral, .ldrLiteralW, [.memsize 32], true, ⟨0xff7f, 0xf85f, [⟨c! "U", 7, 1⟩, ⟨c! "imm12", 16, 12⟩, ⟨c! "Rt", 28, 4⟩]⟩⟩ := by
  refine selected_of_one
    (e1 := ⟨c! "ldr.w", .load, .ldrStrRegT2, [.memsize 32], true, ⟨0xfc0fff0, 0xf850, [⟨c! "Rn", 0, 4⟩, ⟨c! "Rm", 16, 4⟩, ⟨c! "imm2", 20, 2⟩, ⟨c! "Rt", 28, 4⟩]⟩⟩) [] Rows.ldrLitW (by intro f; simp [Case.ldrLitW, Thumb.ldrLitW] <;> grind) (by decide +kernel) (by decide +kernel) ?_
  · intro w a hf ho hc
    refine (Rows.ldrRegW w a ((check_iff_fits (by decide +kernel) w).mp hc)).1 _ ?_
    have fn := field_one (pat := Thumb.ldrRegW.pat) (c := 'n') 0 4 (by decide) w
    have xn := fixed_of_check (d := ⟨c! "ldr.w", .loadLiteral, .ldrLiteralW, [.memsize 32], true, ⟨0xff7f, 0xf85f, [⟨c! "U", 7, 1⟩, ⟨c! "imm12", 16, 12⟩, ⟨c! "Rt", 28, 4⟩]⟩⟩) ((check_iff_fits (by decide +kernel) w).mpr hf) 0 4 (by decide)
    rw [xn] at fn
    change (if field Thumb.ldrRegW.pat w 'n' = 15 then some PyErr.decodeError else none) = _
    exact if_pos fn

theorem ldrSp : Case.ldrSp.Selected
    ⟨c! "ldr", .load, .ldrStrImmT2, [.memsize 32], false, ⟨0xf800, 0x9800, [⟨c! "imm8", 0, 8⟩, ⟨c! "Rt", 8, 3⟩]⟩⟩ := by
  exact selected_of_head [] Rows.ldrSp (by intro f; simp [Case.ldrSp, Thumb.ldrSp] <;> grind) (by decide +kernel) (by decide +kernel)

theorem strSp : Case.strSp.Selected
    ⟨c! "str", .store, .ldrStrImmT2, [.memsize 32], false, ⟨0xf800, 0x9000, [⟨c! "imm8", 0, 8⟩, ⟨c! "Rt", 8, 3⟩]⟩⟩ := by
  exact selected_of_head [] Rows.strSp (by intro f; simp [Case.strSp, Thumb.strSp] <;> grind) (by decide +kernel) (by decide +kernel)

theorem push : Case.push.Selected
    ⟨c! "push", .push, .pushT1, [], false, ⟨0xfe00, 0xb400, [⟨c! "reglist", 0, 8⟩, ⟨c! "M", 8, 1⟩]⟩⟩ := by
  exact selected_of_head [] Rows.push (by intro f; simp [Case.push, Thumb.push] <;> grind) (by decide +kernel) (by decide +kernel)

theorem pushW : Case.pushW.Selected
    ⟨c! "push.w", .push, .pushT2, [], true, ⟨0xa000ffff, 0xe92d, [⟨c! "reglist", 16, 13⟩, ⟨c! "M", 30, 1⟩]⟩⟩ := by
  exact selected_of_head [] Rows.pushW (by intro f; simp [Case.pushW, Thumb.pushW] <;> grind) (by decide +kernel) (by decide +kernel)

theorem pushOne : Case.pushOne.Selected
    ⟨c! "push.w", .push, .pushT3, [], true, ⟨0xfffffff, 0xd04f84d, [⟨c! "Rt", 28, 4⟩]⟩⟩ := by
  exact selected_of_head [] Rows.pushOne (by intro f; simp [Case.pushOne, Thumb.pushOne] <;> grind) (by decide +kernel) (by decide +kernel)

theorem pop : Case.pop.Selected
    ⟨c! "pop", .pop, .popT1, [], false, ⟨0xfe00, 0xbc00, [⟨c! "reglist", 0, 8⟩, ⟨c! "P", 8, 1⟩]⟩⟩ := by
  exact selected_of_head [] Rows.pop (by intro f; simp [Case.pop, Thumb.pop] <;> grind) (by decide +kernel) (by decide +kernel)

theorem popW : Case.popW.Selected
    ⟨c! "pop.w", .pop, .popT2, [], true, ⟨0x2000ffff, 0xe8bd, [⟨c! "reglist", 16, 13⟩, ⟨c! "M", 30, 1⟩, ⟨c! "P", 31, 1⟩]⟩⟩ := by
  exact selected_of_head [⟨c! "ldm.w", .loadMultiple, .ldmT2, [], true, ⟨0x2000ffd0, 0xe890, [⟨c! "Rn", 0, 4⟩, ⟨c! "W", 5, 1⟩, ⟨c! "reglist", 16, 13⟩, ⟨c! "M", 30, 1⟩, ⟨c! "P", 31, 1⟩]⟩⟩] Rows.popW (by intro f; simp [Case.popW, Thumb.popW] <;> grind) (by decide +kernel) (by decide +kernel)

theorem popOne : Case.popOne.Selected
    ⟨c! "pop.w", .pop, .popT3, [], true, ⟨0xfffffff, 0xb04f85d, [⟨c! "Rt", 28, 4⟩]⟩⟩ := by
  exact selected_of_head [] Rows.popOne (by intro f; simp [Case.popOne, Thumb.popOne] <;> grind) (by decide +kernel) (by decide +kernel)

theorem ldm : Case.ldm.Selected
    ⟨c! "ldm", .loadMultiple, .stmLdmT1, [], false, ⟨0xf800, 0xc800, [⟨c! "reglist", 0, 8⟩, ⟨c! "Rn", 8, 3⟩]⟩⟩ := by
  exact selected_of_head [] Rows.ldm (by intro f; simp [Case.ldm, Thumb.ldm] <;> grind) (by decide +kernel) (by decide +kernel)

theorem stm : Case.stm.Selected
    ⟨c! "stm", .storeMultiple, .stmLdmT1, [], false, ⟨0xf800, 0xc000, [⟨c! "reglist", 0, 8⟩, ⟨c! "Rn", 8, 3⟩]⟩⟩ := by
  exact selected_of_head [] Rows.stm (by intro f; simp [Case.stm, Thumb.stm] <;> grind) (by decide +kernel) (by decide +kernel)

theorem stmW : Case.stmW.Selected
    ⟨c! "stm.w", .storeMultiple, .stmT2, [], true, ⟨0xa000ffd0, 0xe880, [⟨c! "Rn", 0, 4⟩, ⟨c! "W", 5, 1⟩, ⟨c! "reglist", 16, 13⟩, ⟨c! "M", 30, 1⟩]⟩⟩ := by
  exact selected_of_head [] Rows.stmW (by intro f; simp [Case.stmW, Thumb.stmW] <;> grind) (by decide +kernel) (by decide +kernel)

theorem ldmW : Case.ldmW.Selected
    ⟨c! "ldm.w", .loadMultiple, .ldmT2, [], true, ⟨0x2000ffd0, 0xe890, [⟨c! "Rn", 0, 4⟩, ⟨c! "W", 5, 1⟩, ⟨c! "reglist", 16, 13⟩, ⟨c! "M", 30, 1⟩, ⟨c! "P", 31, 1⟩]⟩⟩ := by
  refine selected_of_one
    (e1 := ⟨c! "pop.w", .pop, .popT2, [], true, ⟨0x2000ffff, 0xe8bd, [⟨c! "reglist", 16, 13⟩, ⟨c! "M", 30, 1⟩, ⟨c! "P", 31, 1⟩]⟩⟩) [] Rows.ldmW (by intro f; simp [Case.ldmW, Thumb.ldmW] <;> grind) (by decide +kernel) (by decide +kernel) ?_
  · intro w a hf ho hc
    exfalso
    have fw := field_one (pat := Thumb.ldmW.pat) (c := 'w') 5 1 (by decide) w
    have xw0 := fixed_of_check hc 5 1 (by decide)
    simp only [toNat_append, xw0] at fw
    have fn := field_one (pat := Thumb.ldmW.pat) (c := 'n') 0 4 (by decide) w
    have xn0 := fixed_of_check hc 0 4 (by decide)
    simp only [toNat_append, xn0] at fn
    change Thumb.ldmW.ok (field Thumb.ldmW.pat w) = true at ho
    simp [Thumb.ldmW] at ho fw fn
    simp [fw, fn] at ho

theorem cps : Case.cps.Selected
    ⟨c! "cps", .changeProcessorState, .cps, [], false, ⟨0xffec, 0xb660, [⟨c! "F", 0, 1⟩, ⟨c! "I", 1, 1⟩, ⟨c! "im", 4, 1⟩]⟩⟩ := by
  exact selected_of_head [] Rows.cps (by intro f; simp [Case.cps, Thumb.cps] <;> grind) (by decide +kernel) (by decide +kernel)

theorem bkpt : Case.bkpt.Selected
    ⟨c! "bkpt", .instruction, .bkpt, [], false, ⟨0xff00, 0xbe00, [⟨c! "imm8", 0, 8⟩]⟩⟩ := by
  exact selected_of_head [] Rows.bkpt (by intro f; simp [Case.bkpt, Thumb.bkpt] <;> grind) (by decide +kernel) (by decide +kernel)

theorem mrs : Case.mrs.Selected
    ⟨c! "mrs", .moveFromSpecial, .mrs, [], true, ⟨0xf000ffff, 0x8000f3ef, [⟨c! "SYSm", 16, 8⟩, ⟨c! "Rd", 24, 4⟩]⟩⟩ := by
  exact selected_of_head [] Rows.mrs (by intro f; simp [Case.mrs, Thumb.mrs] <;> grind) (by decide +kernel) (by decide +kernel)

theorem msr : Case.msr.Selected
    ⟨c! "msr", .moveToSpecial, .msr, [], true, ⟨0xf300fff0, 0x8000f380, [⟨c! "Rn", 0, 4⟩, ⟨c! "SYSm", 16, 8⟩, ⟨c! "mask", 26, 2⟩]⟩⟩ := by
  exact selected_of_head [] Rows.msr (by intro f; simp [Case.msr, Thumb.msr] <;> grind) (by decide +kernel) (by decide +kernel)

theorem sev : Case.sev.Selected
    ⟨c! "sev", .instruction, .nop, [], false, ⟨0xffff, 0xbf40, []⟩⟩ := by
  exact selected_of_head [] Rows.sev (by intro f; simp [Case.sev, Thumb.sev] <;> grind) (by decide +kernel) (by decide +kernel)

theorem wfi : Case.wfi.Selected
    ⟨c! "wfi", .instruction, .nop, [], false, ⟨0xffff, 0xbf30, []⟩⟩ := by
  exact selected_of_head [] Rows.wfi (by intro f; simp [Case.wfi, Thumb.wfi] <;> grind) (by decide +kernel) (by decide +kernel)

theorem wfe : Case.wfe.Selected
    ⟨c! "wfe", .instruction, .nop, [], false, ⟨0xffff, 0xbf20, []⟩⟩ := by
  exact selected_of_head [] Rows.wfe (by intro f; simp [Case.wfe, Thumb.wfe] <;> grind) (by decide +kernel) (by decide +kernel)

theorem yield : Case.yield.Selected
    ⟨c! "yield", .instruction, .nop, [], false, ⟨0xffff, 0xbf10, []⟩⟩ := by
  exact selected_of_head [] Rows.yield (by intro f; simp [Case.yield, Thumb.yield] <;> grind) (by decide +kernel) (by decide +kernel)

theorem nop : Case.nop.Selected
    ⟨c! "nop", .instruction, .nop, [], false, ⟨0xffff, 0xbf00, []⟩⟩ := by
  exact selected_of_head [] Rows.nop (by intro f; simp [Case.nop, Thumb.nop] <;> grind) (by decide +kernel) (by decide +kernel)

theorem isb : Case.isb.Selected
    ⟨c! "isb", .instruction, .barrier, [], true, ⟨0xfff0ffff, 0x8f60f3bf, [⟨c! "option", 16, 4⟩]⟩⟩ := by
  exact selected_of_head [] Rows.isb (by intro f; simp [Case.isb, Thumb.isb] <;> grind) (by decide +kernel) (by decide +kernel)

theorem dmb : Case.dmb.Selected
    ⟨c! "dmb", .instruction, .barrier, [], true, ⟨0xfff0ffff, 0x8f50f3bf, [⟨c! "option", 16, 4⟩]⟩⟩ := by
  exact selected_of_head [] Rows.dmb (by intro f; simp [Case.dmb, Thumb.dmb] <;> grind) (by decide +kernel) (by decide +kernel)

theorem dsb : Case.dsb.Selected
    ⟨c! "dsb", .instruction, .barrier, [], true, ⟨0xfff0ffff, 0x8f40f3bf, [⟨c! "option", 16, 4⟩]⟩⟩ := by
  exact selected_of_head [] Rows.dsb (by intro f; simp [Case.dsb, Thumb.dsb] <;> grind) (by decide +kernel) (by decide +kernel)

theorem svc : Case.svc.Selected
    ⟨c! "svc", .instruction, .udfT1, [], false, ⟨0xff00, 0xdf00, [⟨c! "imm8", 0, 8⟩]⟩⟩ := by
  exact selected_of_head [⟨c! "b", .branch, .bT1, [], false, ⟨0xf000, 0xd000, [⟨c! "imm8", 0, 8⟩, ⟨c! "cond", 8, 4⟩]⟩⟩] Rows.svc (by intro f; simp [Case.svc, Thumb.svc] <;> grind) (by decide +kernel) (by decide +kernel)

theorem udf : Case.udf.Selected
    ⟨c! "udf", .instruction, .udfT1, [], false, ⟨0xff00, 0xde00, [⟨c! "imm8", 0, 8⟩]⟩⟩ := by
  exact selected_of_head [⟨c! "b", .branch, .bT1, [], false, ⟨0xf000, 0xd000, [⟨c! "imm8", 0, 8⟩, ⟨c! "cond", 8, 4⟩]⟩⟩] Rows.udf (by intro f; simp [Case.udf, Thumb.udf] <;> grind) (by decide +kernel) (by decide +kernel)

theorem udfW : Case.udfW.Selected
    ⟨c! "udf.w", .instruction, .udfT2, [], true, ⟨0xf000fff0, 0xa000f7f0, [⟨c! "imm4", 0, 4⟩, ⟨c! "imm12", 16, 12⟩]⟩⟩ := by
  exact selected_of_head [] Rows.udfW (by intro f; simp [Case.udfW, Thumb.udfW] <;> grind) (by decide +kernel) (by decide +kernel)

end Select

/-- The fixed bits decide, as the decoder does, whether a word is a halfword or two. -/
def halfFits (d : Dec) : Bool :=
  let clash (t : Nat) : Bool := d.fmt.mtch &&& (d.fmt.mask &&& 0xf800) != t &&& (d.fmt.mask &&& 0xf800)
  if d.is32 then [0xf800, 0xf000, 0xe800].any fun t => d.fmt.mask &&& 0xf800 == 0xf800 && d.fmt.mtch &&& 0xf800 == t
  else [0xf800, 0xf000, 0xe800].all fun t => clash t

/-- What is known of an encoding and its decoder. -/
structure Good (c : Case) (d : Dec) : Prop where
  correct : c.Correct d
  selected : c.Selected d
  settles : c.Settles
  same : samePat c.enc.pat d = true
  length : c.enc.pat.length = if d.is32 then 32 else 16
  halves : halfFits d = true

/-- Row by row. -/
def AllGood : List Case → List Dec → Prop
  | [], [] => True
  | c :: cs, d :: ds => Good c d ∧ AllGood cs ds
  | _, _ => False

theorem allGood : AllGood Case.all decs := by
  unfold Case.all decs
  exact ⟨⟨Rows.bics, Select.bics, (by intro f; simp [Case.bics, Thumb.bics] <;> grind), (by decide +kernel), rfl, (by decide)⟩,
    ⟨Rows.orrs, Select.orrs, (by intro f; simp [Case.orrs, Thumb.orrs] <;> grind), (by decide +kernel), rfl, (by decide)⟩,
    ⟨Rows.rorsReg, Select.rorsReg, (by intro f; simp [Case.rorsReg, Thumb.rorsReg] <;> grind), (by decide +kernel), rfl, (by decide)⟩,
    ⟨Rows.sbcs, Select.sbcs, (by intro f; simp [Case.sbcs, Thumb.sbcs] <;> grind), (by decide +kernel), rfl, (by decide)⟩,
    ⟨Rows.adcs, Select.adcs, (by intro f; simp [Case.adcs, Thumb.adcs] <;> grind), (by decide +kernel), rfl, (by decide)⟩,
    ⟨Rows.asrsReg, Select.asrsReg, (by intro f; simp [Case.asrsReg, Thumb.asrsReg] <;> grind), (by decide +kernel), rfl, (by decide)⟩,
    ⟨Rows.lsrsReg, Select.lsrsReg, (by intro f; simp [Case.lsrsReg, Thumb.lsrsReg] <;> grind), (by decide +kernel), rfl, (by decide)⟩,
    ⟨Rows.lslsReg, Select.lslsReg, (by intro f; simp [Case.lslsReg, Thumb.lslsReg] <;> grind), (by decide +kernel), rfl, (by decide)⟩,
    ⟨Rows.eors, Select.eors, (by intro f; simp [Case.eors, Thumb.eors] <;> grind), (by decide +kernel), rfl, (by decide)⟩,
    ⟨Rows.ands, Select.ands, (by intro f; simp [Case.ands, Thumb.ands] <;> grind), (by decide +kernel), rfl, (by decide)⟩,
    ⟨Rows.subsImmT1, Select.subsImmT1, (by intro f; simp [Case.subsImmT1, Thumb.subsImmT1] <;> grind), (by decide +kernel), rfl, (by decide)⟩,
    ⟨Rows.addsImmT1, Select.addsImmT1, (by intro f; simp [Case.addsImmT1, Thumb.addsImmT1] <;> grind), (by decide +kernel), rfl, (by decide)⟩,
    ⟨Rows.subsImmT2, Select.subsImmT2, (by intro f; simp [Case.subsImmT2, Thumb.subsImmT2] <;> grind), (by decide +kernel), rfl, (by decide)⟩,
    ⟨Rows.addsImmT2, Select.addsImmT2, (by intro f; simp [Case.addsImmT2, Thumb.addsImmT2] <;> grind), (by decide +kernel), rfl, (by decide)⟩,
    ⟨Rows.subsReg, Select.subsReg, (by intro f; simp [Case.subsReg, Thumb.subsReg] <;> grind), (by decide +kernel), rfl, (by decide)⟩,
    ⟨Rows.addsReg, Select.addsReg, (by intro f; simp [Case.addsReg, Thumb.addsReg] <;> grind), (by decide +kernel), rfl, (by decide)⟩,
    ⟨Rows.addRegT2, Select.addRegT2, (by intro f; simp [Case.addRegT2, Thumb.addRegT2] <;> grind), (by decide +kernel), rfl, (by decide)⟩,
    ⟨Rows.addSpImmT1, Select.addSpImmT1, (by intro f; simp [Case.addSpImmT1, Thumb.addSpImmT1] <;> grind), (by decide +kernel), rfl, (by decide)⟩,
    ⟨Rows.addSpRegT1, Select.addSpRegT1, (by intro f; simp [Case.addSpRegT1, Thumb.addSpRegT1] <;> grind), (by decide +kernel), rfl, (by decide)⟩,
    ⟨Rows.addSpRegT2, Select.addSpRegT2, (by intro f; simp [Case.addSpRegT2, Thumb.addSpRegT2] <;> grind), (by decide +kernel), rfl, (by decide)⟩,
    ⟨Rows.subSpImm, Select.subSpImm, (by intro f; simp [Case.subSpImm, Thumb.subSpImm] <;> grind), (by decide +kernel), rfl, (by decide)⟩,
    ⟨Rows.addSpImmT2, Select.addSpImmT2, (by intro f; simp [Case.addSpImmT2, Thumb.addSpImmT2] <;> grind), (by decide +kernel), rfl, (by decide)⟩,
    ⟨Rows.asrsImm, Select.asrsImm, (by intro f; simp [Case.asrsImm, Thumb.asrsImm] <;> grind), (by decide +kernel), rfl, (by decide)⟩,
    ⟨Rows.lsrsImm, Select.lsrsImm, (by intro f; simp [Case.lsrsImm, Thumb.lsrsImm] <;> grind), (by decide +kernel), rfl, (by decide)⟩,
    ⟨Rows.lslsImm, Select.lslsImm, (by intro f; simp [Case.lslsImm, Thumb.lslsImm] <;> grind), (by decide +kernel), rfl, (by decide)⟩,
    ⟨Rows.rsbs, Select.rsbs, (by intro f; simp [Case.rsbs, Thumb.rsbs] <;> grind), (by decide +kernel), rfl, (by decide)⟩,
    ⟨Rows.rsbW, Select.rsbW, (by intro f; simp [Case.rsbW, Thumb.rsbW] <;> grind), (by decide +kernel), rfl, (by decide)⟩,
    ⟨Rows.muls, Select.muls, (by intro f; simp [Case.muls, Thumb.muls] <;> grind), (by decide +kernel), rfl, (by decide)⟩,
    ⟨Rows.mulW, Select.mulW, (by intro f; simp [Case.mulW, Thumb.mulW] <;> grind), (by decide +kernel), rfl, (by decide)⟩,
    ⟨Rows.adrT1, Select.adrT1, (by intro f; simp [Case.adrT1, Thumb.adrT1] <;> grind), (by decide +kernel), rfl, (by decide)⟩,
    ⟨Rows.adrAddW, Select.adrAddW, (by intro f; simp [Case.adrAddW, Thumb.adrAddW] <;> grind), (by decide +kernel), rfl, (by decide)⟩,
    ⟨Rows.adrSubW, Select.adrSubW, (by intro f; simp [Case.adrSubW, Thumb.adrSubW] <;> grind), (by decide +kernel), rfl, (by decide)⟩,
    ⟨Rows.uxtb, Select.uxtb, (by intro f; simp [Case.uxtb, Thumb.uxtb] <;> grind), (by decide +kernel), rfl, (by decide)⟩,
    ⟨Rows.uxth, Select.uxth, (by intro f; simp [Case.uxth, Thumb.uxth] <;> grind), (by decide +kernel), rfl, (by decide)⟩,
    ⟨Rows.sxtb, Select.sxtb, (by intro f; simp [Case.sxtb, Thumb.sxtb] <;> grind), (by decide +kernel), rfl, (by decide)⟩,
    ⟨Rows.sxth, Select.sxth, (by intro f; simp [Case.sxth, Thumb.sxth] <;> grind), (by decide +kernel), rfl, (by decide)⟩,
    ⟨Rows.uxtbW, Select.uxtbW, (by intro f; simp [Case.uxtbW, Thumb.uxtbW] <;> grind), (by decide +kernel), rfl, (by decide)⟩,
    ⟨Rows.uxthW, Select.uxthW, (by intro f; simp [Case.uxthW, Thumb.uxthW] <;> grind), (by decide +kernel), rfl, (by decide)⟩,
    ⟨Rows.sxtbW, Select.sxtbW, (by intro f; simp [Case.sxtbW, Thumb.sxtbW] <;> grind), (by decide +kernel), rfl, (by decide)⟩,
    ⟨Rows.sxthW, Select.sxthW, (by intro f; simp [Case.sxthW, Thumb.sxthW] <;> grind), (by decide +kernel), rfl, (by decide)⟩,
    ⟨Rows.revsh, Select.revsh, (by intro f; simp [Case.revsh, Thumb.revsh] <;> grind), (by decide +kernel), rfl, (by decide)⟩,
    ⟨Rows.rev16, Select.rev16, (by intro f; simp [Case.rev16, Thumb.rev16] <;> grind), (by decide +kernel), rfl, (by decide)⟩,
    ⟨Rows.rev, Select.rev, (by intro f; simp [Case.rev, Thumb.rev] <;> grind), (by decide +kernel), rfl, (by decide)⟩,
    ⟨Rows.revshW, Select.revshW, (by intro f; simp [Case.revshW, Thumb.revshW] <;> grind), (by decide +kernel), rfl, (by decide)⟩,
    ⟨Rows.rev16W, Select.rev16W, (by intro f; simp [Case.rev16W, Thumb.rev16W] <;> grind), (by decide +kernel), rfl, (by decide)⟩,
    ⟨Rows.revW, Select.revW, (by intro f; simp [Case.revW, Thumb.revW] <;> grind), (by decide +kernel), rfl, (by decide)⟩,
    ⟨Rows.movReg, Select.movReg, (by intro f; simp [Case.movReg, Thumb.movReg] <;> grind), (by decide +kernel), rfl, (by decide)⟩,
    ⟨Rows.movsReg, Select.movsReg, (by intro f; simp [Case.movsReg, Thumb.movsReg] <;> grind), (by decide +kernel), rfl, (by decide)⟩,
    ⟨Rows.movRegW, Select.movRegW, (by intro f; simp [Case.movRegW, Thumb.movRegW] <;> grind), (by decide +kernel), rfl, (by decide)⟩,
    ⟨Rows.movsImm, Select.movsImm, (by intro f; simp [Case.movsImm, Thumb.movsImm] <;> grind), (by decide +kernel), rfl, (by decide)⟩,
    ⟨Rows.movImmW, Select.movImmW, (by intro f; simp [Case.movImmW, Thumb.movImmW] <;> grind), (by decide +kernel), rfl, (by decide)⟩,
    ⟨Rows.movw, Select.movw, (by intro f; simp [Case.movw, Thumb.movw] <;> grind), (by decide +kernel), rfl, (by decide)⟩,
    ⟨Rows.mvns, Select.mvns, (by intro f; simp [Case.mvns, Thumb.mvns] <;> grind), (by decide +kernel), rfl, (by decide)⟩,
    ⟨Rows.mvnW, Select.mvnW, (by intro f; simp [Case.mvnW, Thumb.mvnW] <;> grind), (by decide +kernel), rfl, (by decide)⟩,
    ⟨Rows.cmpImm, Select.cmpImm, (by intro f; simp [Case.cmpImm, Thumb.cmpImm] <;> grind), (by decide +kernel), rfl, (by decide)⟩,
    ⟨Rows.cmnReg, Select.cmnReg, (by intro f; simp [Case.cmnReg, Thumb.cmnReg] <;> grind), (by decide +kernel), rfl, (by decide)⟩,
    ⟨Rows.cmpRegT1, Select.cmpRegT1, (by intro f; simp [Case.cmpRegT1, Thumb.cmpRegT1] <;> grind), (by decide +kernel), rfl, (by decide)⟩,
    ⟨Rows.cmpRegT2, Select.cmpRegT2, (by intro f; simp [Case.cmpRegT2, Thumb.cmpRegT2] <;> grind), (by decide +kernel), rfl, (by decide)⟩,
    ⟨Rows.cmnImm, Select.cmnImm, (by intro f; simp [Case.cmnImm, Thumb.cmnImm] <;> grind), (by decide +kernel), rfl, (by decide)⟩,
    ⟨Rows.cmpImmW, Select.cmpImmW, (by intro f; simp [Case.cmpImmW, Thumb.cmpImmW] <;> grind), (by decide +kernel), rfl, (by decide)⟩,
    ⟨Rows.tst, Select.tst, (by intro f; simp [Case.tst, Thumb.tst] <;> grind), (by decide +kernel), rfl, (by decide)⟩,
    ⟨Rows.tstW, Select.tstW, (by intro f; simp [Case.tstW, Thumb.tstW] <;> grind), (by decide +kernel), rfl, (by decide)⟩,
    ⟨Rows.bCond, Select.bCond, (by intro f; simp [Case.bCond, Thumb.bCond] <;> grind), (by decide +kernel), rfl, (by decide)⟩,
    ⟨Rows.b, Select.b, (by intro f; simp [Case.b, Thumb.b] <;> grind), (by decide +kernel), rfl, (by decide)⟩,
    ⟨Rows.bl, Select.bl, (by intro f; simp [Case.bl, Thumb.bl] <;> grind), (by decide +kernel), rfl, (by decide)⟩,
    ⟨Rows.blx, Select.blx, (by intro f; simp [Case.blx, Thumb.blx] <;> grind), (by decide +kernel), rfl, (by decide)⟩,
    ⟨Rows.bx, Select.bx, (by intro f; simp [Case.bx, Thumb.bx] <;> grind), (by decide +kernel), rfl, (by decide)⟩,
    ⟨Rows.ldrshReg, Select.ldrshReg, (by intro f; simp [Case.ldrshReg, Thumb.ldrshReg] <;> grind), (by decide +kernel), rfl, (by decide)⟩,
    ⟨Rows.ldrbReg, Select.ldrbReg, (by intro f; simp [Case.ldrbReg, Thumb.ldrbReg] <;> grind), (by decide +kernel), rfl, (by decide)⟩,
    ⟨Rows.ldrhReg, Select.ldrhReg, (by intro f; simp [Case.ldrhReg, Thumb.ldrhReg] <;> grind), (by decide +kernel), rfl, (by decide)⟩,
    ⟨Rows.ldrReg, Select.ldrReg, (by intro f; simp [Case.ldrReg, Thumb.ldrReg] <;> grind), (by decide +kernel), rfl, (by decide)⟩,
    ⟨Rows.ldrsbReg, Select.ldrsbReg, (by intro f; simp [Case.ldrsbReg, Thumb.ldrsbReg] <;> grind), (by decide +kernel), rfl, (by decide)⟩,
    ⟨Rows.strbReg, Select.strbReg, (by intro f; simp [Case.strbReg, Thumb.strbReg] <;> grind), (by decide +kernel), rfl, (by decide)⟩,
    ⟨Rows.strhReg, Select.strhReg, (by intro f; simp [Case.strhReg, Thumb.strhReg] <;> grind), (by decide +kernel), rfl, (by decide)⟩,
    ⟨Rows.strReg, Select.strReg, (by intro f; simp [Case.strReg, Thumb.strReg] <;> grind), (by decide +kernel), rfl, (by decide)⟩,
    ⟨Rows.strRegW, Select.strRegW, (by intro f; simp [Case.strRegW, Thumb.strRegW] <;> grind), (by decide +kernel), rfl, (by decide)⟩,
    ⟨Rows.strhRegW, Select.strhRegW, (by intro f; simp [Case.strhRegW, Thumb.strhRegW] <;> grind), (by decide +kernel), rfl, (by decide)⟩,
    ⟨Rows.strbRegW, Select.strbRegW, (by intro f; simp [Case.strbRegW, Thumb.strbRegW] <;> grind), (by decide +kernel), rfl, (by decide)⟩,
    ⟨Rows.ldrshRegW, Select.ldrshRegW, (by intro f; simp [Case.ldrshRegW, Thumb.ldrshRegW] <;> grind), (by decide +kernel), rfl, (by decide)⟩,
    ⟨Rows.ldrsbRegW, Select.ldrsbRegW, (by intro f; simp [Case.ldrsbRegW, Thumb.ldrsbRegW] <;> grind), (by decide +kernel), rfl, (by decide)⟩,
    ⟨Rows.ldrRegW, Select.ldrRegW, (by intro f; simp [Case.ldrRegW, Thumb.ldrRegW] <;> grind), (by decide +kernel), rfl, (by decide)⟩,
    ⟨Rows.ldrhRegW, Select.ldrhRegW, (by intro f; simp [Case.ldrhRegW, Thumb.ldrhRegW] <;> grind), (by decide +kernel), rfl, (by decide)⟩,
    ⟨Rows.ldrbRegW, Select.ldrbRegW, (by intro f; simp [Case.ldrbRegW, Thumb.ldrbRegW] <;> grind), (by decide +kernel), rfl, (by decide)⟩,
    ⟨Rows.ldrhImm, Select.ldrhImm, (by intro f; simp [Case.ldrhImm, Thumb.ldrhImm] <;> grind), (by decide +kernel), rfl, (by decide)⟩,
    ⟨Rows.strhImm, Select.strhImm, (by intro f; simp [Case.strhImm, Thumb.strhImm] <;> grind), (by decide +kernel), rfl, (by decide)⟩,
    ⟨Rows.ldrbImm, Select.ldrbImm, (by intro f; simp [Case.ldrbImm, Thumb.ldrbImm] <;> grind), (by decide +kernel), rfl, (by decide)⟩,
    ⟨Rows.strbImm, Select.strbImm, (by intro f; simp [Case.strbImm, Thumb.strbImm] <;> grind), (by decide +kernel), rfl, (by decide)⟩,
    ⟨Rows.ldrImm, Select.ldrImm, (by intro f; simp [Case.ldrImm, Thumb.ldrImm] <;> grind), (by decide +kernel), rfl, (by decide)⟩,
    ⟨Rows.strImm, Select.strImm, (by intro f; simp [Case.strImm, Thumb.strImm] <;> grind), (by decide +kernel), rfl, (by decide)⟩,
    ⟨Rows.ldrLit, Select.ldrLit, (by intro f; simp [Case.ldrLit, Thumb.ldrLit] <;> grind), (by decide +kernel), rfl, (by decide)⟩,
    ⟨Rows.ldrsbLitW, Select.ldrsbLitW, (by intro f; simp [Case.ldrsbLitW, Thumb.ldrsbLitW] <;> grind), (by decide +kernel), rfl, (by decide)⟩,
    ⟨Rows.ldrshLitW, Select.ldrshLitW, (by intro f; simp [Case.ldrshLitW, Thumb.ldrshLitW] <;> grind), (by decide +kernel), rfl, (by decide)⟩,
    ⟨Rows.ldrbLitW, Select.ldrbLitW, (by intro f; simp [Case.ldrbLitW, Thumb.ldrbLitW] <;> grind), (by decide +kernel), rfl, (by decide)⟩,
    ⟨Rows.ldrhLitW, Select.ldrhLitW, (by intro f; simp [Case.ldrhLitW, Thumb.ldrhLitW] <;> grind), (by decide +kernel), rfl, (by decide)⟩,
    ⟨Rows.ldrLitW, Select.ldrLitW, (by intro f; simp [Case.ldrLitW, Thumb.ldrLitW] <;> grind), (by decide +kernel), rfl, (by decide)⟩,
    ⟨Rows.ldrSp, Select.ldrSp, (by intro f; simp [Case.ldrSp, Thumb.ldrSp] <;> grind), (by decide +kernel), rfl, (by decide)⟩,
    ⟨Rows.strSp, Select.strSp, (by intro f; simp [Case.strSp, Thumb.strSp] <;> grind), (by decide +kernel), rfl, (by decide)⟩,
    ⟨Rows.push, Select.push, (by intro f; simp [Case.push, Thumb.push] <;> grind), (by decide +kernel), rfl, (by decide)⟩,
    ⟨Rows.pushW, Select.pushW, (by intro f; simp [Case.pushW, Thumb.pushW] <;> grind), (by decide +kernel), rfl, (by decide)⟩,
    ⟨Rows.pushOne, Select.pushOne, (by intro f; simp [Case.pushOne, Thumb.pushOne] <;> grind), (by decide +kernel), rfl, (by decide)⟩,
    ⟨Rows.pop, Select.pop, (by intro f; simp [Case.pop, Thumb.pop] <;> grind), (by decide +kernel), rfl, (by decide)⟩,
    ⟨Rows.popW, Select.popW, (by intro f; simp [Case.popW, Thumb.popW] <;> grind), (by decide +kernel), rfl, (by decide)⟩,
    ⟨Rows.popOne, Select.popOne, (by intro f; simp [Case.popOne, Thumb.popOne] <;> grind), (by decide +kernel), rfl, (by decide)⟩,
    ⟨Rows.ldm, Select.ldm, (by intro f; simp [Case.ldm, Thumb.ldm] <;> grind), (by decide +kernel), rfl, (by decide)⟩,
    ⟨Rows.stm, Select.stm, (by intro f; simp [Case.stm, Thumb.stm] <;> grind), (by decide +kernel), rfl, (by decide)⟩,
    ⟨Rows.stmW, Select.stmW, (by intro f; simp [Case.stmW, Thumb.stmW] <;> grind), (by decide +kernel), rfl, (by decide)⟩,
    ⟨Rows.ldmW, Select.ldmW, (by intro f; simp [Case.ldmW, Thumb.ldmW] <;> grind), (by decide +kernel), rfl, (by decide)⟩,
    ⟨Rows.cps, Select.cps, (by intro f; simp [Case.cps, Thumb.cps] <;> grind), (by decide +kernel), rfl, (by decide)⟩,
    ⟨Rows.bkpt, Select.bkpt, (by intro f; simp [Case.bkpt, Thumb.bkpt] <;> grind), (by decide +kernel), rfl, (by decide)⟩,
    ⟨Rows.mrs, Select.mrs, (by intro f; simp [Case.mrs, Thumb.mrs] <;> grind), (by decide +kernel), rfl, (by decide)⟩,
    ⟨Rows.msr, Select.msr, (by intro f; simp [Case.msr, Thumb.msr] <;> grind), (by decide +kernel), rfl, (by decide)⟩,
    ⟨Rows.sev, Select.sev, (by intro f; simp [Case.sev, Thumb.sev] <;> grind), (by decide +kernel), rfl, (by decide)⟩,
    ⟨Rows.wfi, Select.wfi, (by intro f; simp [Case.wfi, Thumb.wfi] <;> grind), (by decide +kernel), rfl, (by decide)⟩,
    ⟨Rows.wfe, Select.wfe, (by intro f; simp [Case.wfe, Thumb.wfe] <;> grind), (by decide +kernel), rfl, (by decide)⟩,
    ⟨Rows.yield, Select.yield, (by intro f; simp [Case.yield, Thumb.yield] <;> grind), (by decide +kernel), rfl, (by decide)⟩,
    ⟨Rows.nop, Select.nop, (by intro f; simp [Case.nop, Thumb.nop] <;> grind), (by decide +kernel), rfl, (by decide)⟩,
    ⟨Rows.isb, Select.isb, (by intro f; simp [Case.isb, Thumb.isb] <;> grind), (by decide +kernel), rfl, (by decide)⟩,
    ⟨Rows.dmb, Select.dmb, (by intro f; simp [Case.dmb, Thumb.dmb] <;> grind), (by decide +kernel), rfl, (by decide)⟩,
    ⟨Rows.dsb, Select.dsb, (by intro f; simp [Case.dsb, Thumb.dsb] <;> grind), (by decide +kernel), rfl, (by decide)⟩,
    ⟨Rows.svc, Select.svc, (by intro f; simp [Case.svc, Thumb.svc] <;> grind), (by decide +kernel), rfl, (by decide)⟩,
    ⟨Rows.udf, Select.udf, (by intro f; simp [Case.udf, Thumb.udf] <;> grind), (by decide +kernel), rfl, (by decide)⟩,
    ⟨Rows.udfW, Select.udfW, (by intro f; simp [Case.udfW, Thumb.udfW] <;> grind), (by decide +kernel), rfl, (by decide)⟩,
    trivial⟩

end Verif
