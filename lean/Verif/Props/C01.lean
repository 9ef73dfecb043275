import Verif.Lemmas.Bitstring

/-!
# C01: a bitstring stays in range

`Made b` says that `b` is the contents of a bitstring object that some program
using the public operations can hold, after any number of operations.
-/

namespace Verif
open BS

/-- The bitstrings that sequences of public operations produce: one rule per
constructor, operator, method and setter of `bitstring.py`. -/
inductive Made : BS → Prop
  | construct {val w b} : (∀ c, val = .bs c → Made c) → init val w = .ok b → Made b
  | setValue {b} (v : Int) : Made b → Made (b.setValue v)
  | inverted {b} : Made b → Made b.inverted
  | invert {b} : Made b → Made b.invert
  | signed {b} : Made b → Made b.signed.2
  | setWidth {b b'} (w : Int) : Made b → b.setWidth w = .ok b' → Made b'
  | reversed {b b'} : Made b → b.reversed = .ok b' → Made b'
  | eqOp {b o r} : Made b → b.eqOp o = .ok r → Made r.2
  | ltOp {b o r} : Made b → b.ltOp o = .ok r → Made r.2
  | leOp {b o r} : Made b → b.leOp o = .ok r → Made r.2
  | getBit {b b'} (i : Int) : Made b → b.getBit i = .ok b' → Made b'
  | getSlice {b b'} (s : PySlice) : Made b → b.getSlice s = .ok b' → Made b'
  | setSlice {b b' v} (s : PySlice) : Made b → (∀ c, v = .bs c → Made c) → b.setSlice s v = .ok b' → Made b'
  | setItem {b b' v} (k : Int) : Made b → (∀ c, v = .bs c → Made c) → b.setItem k v = .ok b' → Made b'
  | imod {b b' v} : Made b → (∀ c, v = .bs c → Made c) → b.imod v = .ok b' → Made b'
  | mod {b b' v} : Made b → (∀ c, v = .bs c → Made c) → b.mod v = .ok b' → Made b'
  | signExtend {b b'} (w : Int) : Made b → b.signExtend w = .ok b' → Made b'
  | zeroExtend {b b'} (w : Int) : Made b → b.zeroExtend w = .ok b' → Made b'
  | iadd {b b' o} : Made b → b.iadd o = .ok b' → Made b'
  | isub {b b' o} : Made b → b.isub o = .ok b' → Made b'
  | imul {b b' o} : Made b → b.imul o = .ok b' → Made b'
  | ifloordiv {b b' o} : Made b → b.ifloordiv o = .ok b' → Made b'
  | add {b b' o} : Made b → b.add o = .ok b' → Made b'
  | sub {b b' o} : Made b → b.sub o = .ok b' → Made b'
  | mul {b b' o} : Made b → b.mul o = .ok b' → Made b'
  | floordiv {b b' o} : Made b → b.floordiv o = .ok b' → Made b'
  | shl {b b'} (n : Int) : Made b → b.shl n = .ok b' → Made b'
  | shr {b b'} (n : Int) : Made b → b.shr n = .ok b' → Made b'
  | and {b b' o} : Made b → b.and o = .ok b' → Made b'
  | or {b b' o} : Made b → b.or o = .ok b' → Made b'
  | xor {b b' o} : Made b → b.xor o = .ok b' → Made b'
  | isZeroBit {b} : Made b → Made b.isZeroBit
  | isOnesBit {b} : Made b → Made b.isOnesBit

namespace C01

theorem init_wf {val w b} (h : init val w = .ok b) : b.WF := by
  unfold init at h
  cases hr : initRaw val with
  | error e => rw [hr] at h; cases h
  | ok p =>
    rw [hr] at h
    simp only [bind, Except.bind] at h
    split at h
    · cases h
    · cases h; exact ofInt_wf _ _

theorem iconcat_wf {b c : BS} (hb : b.WF) (hc : c.WF) : (b.iconcat c).WF := by
  rw [hb.eq_bv, hc.eq_bv, iconcat_bv]; exact bv_wf _ _

theorem maskField_wf {b : BS} (h : b.WF) (v : Int) :
    ({ b with value := (pyAnd v b.mask).toNat } : BS).WF := by
  rw [maskOp h]; exact ofInt_wf _ _

theorem signed_wf {b : BS} (h : b.WF) : b.signed.2.WF := by
  unfold BS.signed
  split
  · exact h
  · dsimp only
    split
    · exact inverted_wf _
    · exact h

theorem imod_wf {b b' : BS} {v : PyVal} (hb : b.WF) (hv : ∀ c, v = .bs c → c.WF)
    (h : b.imod v = .ok b') : b'.WF := by
  unfold BS.imod at h
  split at h
  · cases h; exact iconcat_wf hb (hv _ rfl)
  · rename_i s
    cases hi : init (.str s) none with
    | error e => rw [hi] at h; cases h
    | ok c => rw [hi] at h; cases h; exact iconcat_wf hb (init_wf hi)
  · split at h
    · rename_i v _
      cases hi : init (.int v) (some 1) with
      | error e => rw [hi] at h; cases h
      | ok c => rw [hi] at h; cases h; exact iconcat_wf hb (init_wf hi)
    · cases h
  · rename_i s
    cases hi : init (.seq s) none with
    | error e => rw [hi] at h; cases h
    | ok c => rw [hi] at h; cases h; exact iconcat_wf hb (init_wf hi)
  · cases h; exact hb

theorem getBit_wf {b b' : BS} {i : Int} (h : b.getBit i = .ok b') : b'.WF := by
  unfold BS.getBit at h
  generalize (if i < 0 then (b.width : Int) + i else i) = p at h
  dsimp only at h
  split at h
  · cases h
  · cases h; exact ofInt_wf _ _

theorem sliceLoop_wf {b : BS} {stop step : Int} {fuel : Nat} {i : Int} {r r' : BS} (hr : r.WF)
    (h : sliceLoop b stop step fuel i r = .ok r') : r'.WF := by
  induction fuel generalizing i r with
  | zero => cases h; exact hr
  | succ n ih =>
    unfold sliceLoop at h
    by_cases hc : (if step > 0 then i < stop else i > stop)
    · rw [if_pos hc] at h
      obtain ⟨c, hg, h⟩ := bindOk.1 h
      exact ih (concat_wf (getBit_wf hg) hr) h
    · rw [if_neg hc] at h
      cases h; exact hr

theorem eqOp_wf {b : BS} {o : PyVal} {r} (hb : b.WF) (h : b.eqOp o = .ok r) : r.2.WF := by
  unfold BS.eqOp at h
  split at h
  · split at h
    · cases h; exact signed_wf hb
    · cases h; exact hb
  · rename_i s
    cases hi : init (.str s) none with
    | error e => rw [hi] at h; cases h
    | ok c => rw [hi] at h; cases h; exact hb
  · cases h; exact hb
  · cases h; exact hb

theorem ltOp_wf {b : BS} {o : PyVal} {r} (hb : b.WF) (h : b.ltOp o = .ok r) : r.2.WF := by
  unfold BS.ltOp at h
  split at h
  · split at h
    · cases h; exact signed_wf hb
    · cases h; exact hb
  · rename_i s
    cases hi : init (.str s) none with
    | error e => rw [hi] at h; cases h
    | ok c => rw [hi] at h; cases h; exact hb
  · cases h; exact hb
  · cases h; exact hb

theorem leOp_wf {b : BS} {o : PyVal} {r} (hb : b.WF) (h : b.leOp o = .ok r) : r.2.WF := by
  unfold BS.leOp at h
  cases he : b.eqOp o with
  | error e => rw [he] at h; cases h
  | ok p =>
    rw [he] at h
    simp only [bind, Except.bind] at h
    split at h
    · cases h; exact eqOp_wf hb he
    · exact ltOp_wf (eqOp_wf hb he) h

theorem iarith_wf {b b' : BS} {o : PyVal} (hb : b.WF) (f : Int → Int)
    (h : (do
      match ← operand o with
      | some v => .ok { b with value := (pyAnd (f v) b.mask).toNat }
      | none => .ok b : PyRes BS) = .ok b') : b'.WF := by
  cases ho : operand o with
  | error e => rw [ho] at h; cases h
  | ok p =>
    rw [ho] at h
    cases p with
    | none => cases h; exact hb
    | some v => cases h; exact maskField_wf hb _

theorem ifloordiv_wf {b b' : BS} {o : PyVal} (hb : b.WF) (h : b.ifloordiv o = .ok b') : b'.WF := by
  unfold BS.ifloordiv at h
  cases ho : operand o with
  | error e => rw [ho] at h; cases h
  | ok p =>
    rw [ho] at h
    cases p with
    | none => cases h; exact hb
    | some v =>
      simp only [bind, Except.bind] at h
      split at h
      · cases h
      · cases h; exact maskField_wf hb _

theorem setSlice_wf {b b' : BS} {v : PyVal} {s : PySlice} (hb : b.WF)
    (h : b.setSlice s v = .ok b') : b'.WF := by
  unfold BS.setSlice at h
  obtain ⟨⟨start, stop, step⟩, hi, h⟩ := bindOk.1 h
  dsimp only at h
  split at h
  · cases h
  · rename_i hstep
    obtain ⟨c, _, h⟩ := bindOk.1 h
    split at h
    · cases h
    · rename_i hle
      cases h
      refine ⟨?_, hb.2⟩
      -- the bounds are inside the bitstring
      have hbounds : 0 ≤ start ∧ stop ≤ b.width := by
        unfold PySlice.indices at hi
        dsimp only at hi
        split at hi
        · cases hi
        · simp only [Except.ok.injEq, Prod.mk.injEq] at hi
          obtain ⟨h1, h2, h3⟩ := hi
          have hst : s.step.getD 1 = 1 := by rw [h3]; simpa using hstep
          rw [hst] at h1 h2
          simp only [show ¬ ((1 : Int) < 0) by decide, if_false] at h1 h2
          constructor
          · rw [← h1]; split
            · omega
            · split <;> split <;> omega
          · rw [← h2]; split
            · omega
            · split <;> split <;> omega
      show natAndNot b.value _ ||| _ < 2 ^ b.width
      apply Nat.or_lt_two_pow
      · exact Nat.lt_of_le_of_lt (natAndNot_le _ _) hb.1
      · apply Nat.lt_of_le_of_lt Nat.and_le_right
        rw [Nat.shiftLeft_eq]
        have e : b.width = (b.width - (stop - start).toNat - start.toNat) + ((stop - start).toNat + start.toNat) := by
          omega
        rw [e]
        have hp := Nat.two_pow_pos (stop - start).toNat
        calc (2 ^ (stop - start).toNat - 1) * 2 ^ start.toNat
            < 2 ^ (stop - start).toNat * 2 ^ start.toNat :=
              Nat.mul_lt_mul_of_pos_right (by omega) (Nat.two_pow_pos _)
          _ = 2 ^ ((stop - start).toNat + start.toNat) := by rw [Nat.pow_add]
          _ ≤ _ := Nat.pow_le_pow_right (by decide) (by omega)

theorem setItem_wf {b b' : BS} {v : PyVal} {k : Int} (hb : b.WF)
    (h : b.setItem k v = .ok b') : b'.WF := by
  unfold BS.setItem at h
  split at h
  · cases h
  · rename_i hk
    obtain ⟨x, _, h⟩ := bindOk.1 h
    generalize hkk : (if k < 0 then (b.width : Int) + k else k) = kk at h
    dsimp only at h
    split at h
    · cases h
    · cases h
      · refine ⟨?_, hb.2⟩
        show (b.value &&& _) ||| _ < 2 ^ b.width
        apply Nat.or_lt_two_pow
        · exact Nat.lt_of_le_of_lt Nat.and_le_left hb.1
        · rw [pyAnd_one, Nat.shiftLeft_eq]
          have hlt : kk.toNat < b.width := by
            rw [← hkk]; split <;> omega
          have h2 : (x % 2).toNat ≤ 1 := by omega
          calc (x % 2).toNat * 2 ^ kk.toNat ≤ 1 * 2 ^ kk.toNat := Nat.mul_le_mul_right _ h2
            _ < 2 ^ b.width := by rw [Nat.one_mul]; exact Nat.pow_lt_pow_right (by decide) hlt

theorem reversed_wf {b b' : BS} (h : b.reversed = .ok b') : b'.WF := init_wf h

theorem signExtend_wf {b b' : BS} {w : Int} (hb : b.WF) (h : b.signExtend w = .ok b') : b'.WF := by
  unfold BS.signExtend at h
  split at h
  · cases h
  · split at h
    · cases h; exact hb
    · split at h
      · cases h
      · simp only [bind, Except.bind] at h
        split at h
        · cases h
        · rename_i c hc
          cases h
          exact concat_wf (init_wf hc) hb

theorem zeroExtend_wf {b b' : BS} {w : Int} (hb : b.WF) (h : b.zeroExtend w = .ok b') : b'.WF := by
  unfold BS.zeroExtend at h
  split at h
  · cases h
  · split at h
    · cases h; exact hb
    · exact init_wf h

theorem bit_wf {b b' : BS} {wide : Bool} {o : PyVal} (f : Int → Int)
    (h : (do let (w, v) ← b.bitOperand wide o; .ok (ofInt (f v) w) : PyRes BS) = .ok b') : b'.WF := by
  cases ho : b.bitOperand wide o with
  | error e => rw [ho] at h; cases h
  | ok p => rw [ho] at h; cases h; exact ofInt_wf _ _

/-- **C01.** After any sequence of operations a bitstring holds a value below
`2^width`, and its mask is `2^width - 1`. -/
theorem bitstring_in_range_partial {b : BS} (h : Made b) :
    b.value < 2 ^ b.width ∧ b.mask = 2 ^ b.width - 1 := by
  show b.WF
  induction h with
  | construct _ h _ => exact init_wf h
  | setValue v _ ih => exact maskField_wf ih v
  | inverted _ _ => exact inverted_wf _
  | invert _ _ => exact inverted_wf _
  | signed _ ih => exact signed_wf ih
  | setWidth w _ h _ =>
    unfold BS.setWidth at h
    split at h
    · cases h
    · cases h
      refine ⟨?_, rfl⟩
      show _ &&& _ < _
      rw [Nat.and_two_pow_sub_one_eq_mod]
      exact Nat.mod_lt _ (Nat.two_pow_pos _)
  | reversed _ h _ => exact reversed_wf h
  | eqOp _ h ih => exact eqOp_wf ih h
  | ltOp _ h ih => exact ltOp_wf ih h
  | leOp _ h ih => exact leOp_wf ih h
  | getBit i _ h _ => exact getBit_wf h
  | getSlice s _ h _ =>
    unfold BS.getSlice at h
    simp only [bind, Except.bind] at h
    split at h
    · cases h
    · exact sliceLoop_wf (ofInt_wf _ _) h
  | setSlice s _ _ h ih _ => exact setSlice_wf ih h
  | setItem k _ _ h ih _ => exact setItem_wf ih h
  | imod _ _ h ih ih' => exact imod_wf ih ih' h
  | mod _ _ h ih ih' => exact imod_wf (ofInt_wf _ _) ih' h
  | signExtend w _ h ih => exact signExtend_wf ih h
  | zeroExtend w _ h ih => exact zeroExtend_wf ih h
  | iadd _ h ih => exact iarith_wf ih _ h
  | isub _ h ih => exact iarith_wf ih _ h
  | imul _ h ih => exact iarith_wf ih _ h
  | ifloordiv _ h ih => exact ifloordiv_wf ih h
  | add _ h ih => exact iarith_wf (ofInt_wf _ _) _ h
  | sub _ h ih => exact iarith_wf (ofInt_wf _ _) _ h
  | mul _ h ih => exact iarith_wf (ofInt_wf _ _) _ h
  | floordiv _ h ih => exact ifloordiv_wf (ofInt_wf _ _) h
  | shl n _ h _ =>
    unfold BS.shl at h
    simp only [bind, Except.bind] at h
    split at h
    · cases h
    · cases h; exact ofInt_wf _ _
  | shr n _ h _ =>
    unfold BS.shr at h
    simp only [bind, Except.bind] at h
    split at h
    · cases h
    · cases h; exact ofInt_wf _ _
  | and _ h _ => exact bit_wf _ h
  | or _ h _ => exact bit_wf _ h
  | xor _ h _ => exact bit_wf _ h
  | isZeroBit _ _ => unfold BS.isZeroBit; split; exact bv_wf 1 1; exact bv_wf 1 0
  | isOnesBit _ _ => unfold BS.isOnesBit; split; exact bv_wf 1 1; exact bv_wf 1 0

/-- The range is filled: every width and every value below `2^width` is the
contents of some bitstring, so the hypothesis of the theorems about bitstrings,
`b.WF`, says exactly that `b` is a bitstring a program can hold. -/
theorem made_iff_wf (b : BS) : Made b ↔ b.WF := by
  constructor
  · exact bitstring_in_range_partial
  · intro h
    apply Made.construct (val := .int b.value) (w := some (b.width : Int))
    · intro c hc; cases hc
    · simp only [init, initRaw, bind, Except.bind, Option.getD_some]
      rw [if_neg (by omega), Int.toNat_natCast, ofInt_nat, ← h.eq_bv]

/-- A history that uses many rules: 4 bits, complemented by reading `signed`,
extended, shifted, partly overwritten, and decremented by a negative number. -/
example : Made ((((((bv 4 9).signed.2).concat (bv 3 5)).copy).setValue (-3))) :=
  .setValue _ (.construct (val := .bs _) (w := none)
    (by intro c hc; cases hc
        exact .mod (b := (bv 4 9).signed.2) (v := .bs (bv 3 5))
          (.signed (.construct (val := .int 9) (w := some 4) (by intro c h; cases h) rfl))
          (by intro c hc; cases hc
              exact .construct (val := .str (c! "101")) (w := none) (by intro c h; cases h) rfl) rfl) rfl)

end C01
end Verif
