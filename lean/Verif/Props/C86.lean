import Verif.Dump
import Verif.Props.C76to77

/-!
# C86: the CPU shown as text
-/

namespace Verif
open BS

namespace C86

/-- The text of a word in eight hexadecimal digits. -/
def Hex8 (s : Str) (v : Word) : Prop := s.length = 8 ∧ Reader.nat 16 s = some v.toNat

theorem getLr_conc (a : Arm) : readRegister (.name (c! "lr")) a.conc = (.ok (ofBV (a.reg 14)), a.conc) :=
  readRegister_conc a (by decide) (by decide)

theorem getR_at (a : Arm) (k : Int) (n : Nat) (hk : k = n) (h : n < 16) : getR k a.conc = (.ok (ofBV (a.reg n)), a.conc) := by
  rw [hk]
  exact getR_conc a n h

theorem next {α β : Type} {x : CpuM α} {f : α → CpuM β} {s s' : Machine} {v : α} (h : x s = (.ok v, s')) : (x >>= f) s = f v s' := by
  show CpuM.bind x f s = _
  unfold CpuM.bind
  rw [h]

/-- **C86.** `dump` prints four lines of four registers: R0 to R12 once, SP, LR and PC once,
each as eight hexadecimal digits that read back as the register. It changes nothing. -/
theorem dump_shows (s : Machine) (c : Core) (hs : Shows s c) : ∃ x : Nat → Str, (∀ k < 16, Hex8 (x k) (c.reg k)) ∧
    dumpCpu s = (.ok [
      c! "r0=" ++ x 0 ++ c! "    r4=" ++ x 4 ++ c! "    r8 =" ++ x 8 ++ c! "   r12=" ++ x 12,
      c! "r1=" ++ x 1 ++ c! "    r5=" ++ x 5 ++ c! "    r9 =" ++ x 9 ++ c! "   sp =" ++ x 13,
      c! "r2=" ++ x 2 ++ c! "    r6=" ++ x 6 ++ c! "    r10=" ++ x 10 ++ c! "   lr =" ++ x 14,
      c! "r3=" ++ x 3 ++ c! "    r7=" ++ x 7 ++ c! "    r11=" ++ x 11 ++ c! "   pc =" ++ x 15], s) := by
  obtain ⟨a, rfl, rfl, -⟩ := hs.arm
  refine ⟨fun k => hexPad 8 ((a.reg k).toNat : Int), fun k _ => ⟨C69.hexPad_length (by have := (a.reg k).isLt; omega) (by decide), C69.nat_hexPad _ _⟩, ?_⟩
  unfold dumpCpu
  rw [next (getR_at a 0 0 rfl (by decide)), next (getR_at a 4 4 rfl (by decide)), next (getR_at a 8 8 rfl (by decide)), next (getR_at a 12 12 rfl (by decide)),
    next (getR_at a 1 1 rfl (by decide)), next (getR_at a 5 5 rfl (by decide)), next (getR_at a 9 9 rfl (by decide)), next (getSp_conc a),
    next (getR_at a 2 2 rfl (by decide)), next (getR_at a 6 6 rfl (by decide)), next (getR_at a 10 10 rfl (by decide)), next (getLr_conc a),
    next (getR_at a 3 3 rfl (by decide)), next (getR_at a 7 7 rfl (by decide)), next (getR_at a 11 11 rfl (by decide)), next (getPc_conc a)]
  rfl

theorem shownRegs_conc (a : Arm) : ∀ l : List Nat, (∀ k ∈ l, k < 16) →
    shownRegs l a.conc = (.ok (l.map fun (k : Nat) => intText 16 ((a.reg k).toNat : Int)), a.conc)
  | [], _ => rfl
  | k :: t, h => by
    rw [shownRegs, next (getR_conc a k (h k (List.mem_cons_self ..))), next (shownRegs_conc a t fun j hj => h j (List.mem_cons_of_mem _ hj))]
    rfl

/-- **C86.** The `repr` of the CPU shows PC, xPSR and R0 to R14, separated by blanks, as
hexadecimal numbers that read back as the registers. It changes nothing. -/
theorem repr_shows (s : Machine) (c : Core) (hs : Shows s c) (name ident : Str) : ∃ x : Nat → Str,
    (∀ k < 17, Reader.nat 16 (x k) = some (c.reg k).toNat) ∧
    reprCpu name ident s = (.ok (c! "<" ++ name ++ c! "@" ++ ident ++ c! " pc=" ++ x 15 ++ c! " xpsr=" ++ x 16 ++ c! " rN=[" ++
      (c! " ").intercalate [x 0, x 1, x 2, x 3, x 4, x 5, x 6, x 7, x 8, x 9, x 10, x 11, x 12, x 13, x 14] ++ c! "]>"), s) := by
  obtain ⟨a, rfl, rfl, -⟩ := hs.arm
  have hx : ∀ v : Word, intText 16 (v.toNat : Int) = natText 16 v.toNat := by
    intro v
    rw [intText, if_neg (by omega)]; rfl
  refine ⟨fun k => natText 16 (a.reg k).toNat, fun k _ => Reader.nat_natText (by decide) (by decide) _, ?_⟩
  unfold reprCpu
  rw [next (getPc_conc a), next (getXpsr_conc a), next (shownRegs_conc a (List.range 15) (by intro k hk; have := List.mem_range.mp hk; omega))]
  simp only [hx]
  show (Except.ok (_ ++ intText 16 ((a.reg 15).toNat : Int) ++ _ ++ intText 16 ((a.reg 16).toNat : Int) ++ _ ++ _ ++ _), _) = _
  rw [hx, hx]
  rfl

/-- A new machine with 42 in R7. -/
example : (dumpCpu (setKey (some 7) 42 Machine.new)).1 = .ok [
      c! "r0=00000000    r4=00000000    r8 =00000000   r12=00000000",
      c! "r1=00000000    r5=00000000    r9 =00000000   sp =00000000",
      c! "r2=00000000    r6=00000000    r10=00000000   lr =00000000",
      c! "r3=00000000    r7=0000002a    r11=00000000   pc =00000000"] ∧
    (reprCpu (c! "CpuModel") (c! "0x7f00") (setKey (some 7) 42 Machine.new)).1 =
      .ok (c! "<CpuModel@0x7f00 pc=0 xpsr=1000000 rN=[0 0 0 0 0 0 0 2a 0 0 0 0 0 0 0]>") := by
  decide +kernel

end C86
end Verif
