import Verif.Disasm
import Verif.Props.C36to39

/-!
# Lemmas on disassembling
-/

namespace Verif
open BS Handler

/-! ### The address is only passed on -/

/-- The same instruction at another address. -/
def Instr.at (a : Int) (i : Instr) : Instr := { i with address := a }

theorem bind_at {α : Type} {x : PyRes α} {f f' : α → PyRes Instr} {a : Int} (h : ∀ v, f v = (f' v).map (Instr.at a)) :
    (x >>= f) = (x >>= f').map (Instr.at a) := by
  cases x with
  | error e => rfl
  | ok v => exact h v

theorem run_at (h : Handler) (args : List BS) (i : Instr) (a : Int) :
    h.run args (i.at a) = (h.run args i).map (Instr.at a) := by
  unfold Handler.run
  split <;> (repeat' (first | rfl | (apply bind_at; intro v) | split))

theorem foldl_at (l : List Kw) (i : Instr) (a : Int) : l.foldl Kw.set (i.at a) = (l.foldl Kw.set i).at a := by
  induction l generalizing i with
  | nil => rfl
  | cons k t ih =>
    rw [List.foldl_cons, List.foldl_cons, ← ih]
    congr 1
    cases k <;> rfl

theorem fresh_at (d : Dec) (w : Nat) (a b : Int) : d.fresh w a = (d.fresh w b).at a := by
  unfold Dec.fresh
  rw [← foldl_at]
  rfl

theorem decode_at (d : Dec) (w : Nat) (a b : Int) : d.decode w a = (d.decode w b).map (Instr.at a) := by
  unfold Dec.decode
  apply bind_at
  intro v
  unfold Dec.call
  split
  · apply bind_at
    intro args
    rw [fresh_at d w a b]
    exact run_at ..
  · rfl

theorem tryAll_at (w : Nat) (a b : Int) : ∀ s, tryAll w a s = (tryAll w b s).map (Instr.at a)
  | [] => rfl
  | d :: t => by
    rw [tryAll, tryAll, decode_at d w a b]
    split
    · cases h : d.decode w b with
      | ok i => rfl
      | error e => cases e <;> first | exact tryAll_at w a b t | rfl
    · exact tryAll_at w a b t

theorem walk_at (w : Nat) (a b : Int) : ∀ t : Tree, (t.walk w a).1 = (t.walk w b).1.map (Instr.at a)
  | .leaf ds => tryAll_at w a b ds
  | .hole => rfl
  | .node mask keys child => by
    rw [Tree.walk, Tree.walk]
    simp only
    split
    · exact walk_at w a b (child (w &&& mask))
    · rfl

theorem trees_at (ts : Trees) (data : List Nat) (a b : Int) : (ts.decode data a).1 = (ts.decode data b).1.map (Instr.at a) := by
  unfold Trees.decode
  split
  · rfl
  · split
    · rfl
    · split
      · split
        · rfl
        · split
          · rfl
          · exact walk_at ..
      · exact walk_at ..

/-! ### The loop without trees and offsets -/

/-- The loop on what is left of the data, with a decoder that has no state. -/
def disLoop (D : List Nat → Int → PyRes Instr) : Nat → List Nat → Int → Yields
  | 0, _, _ => ([], none)
  | fuel + 1, data, a =>
    if data = [] then ([], none)
    else match D data a with
      | .error .undefinedInstruction => if data.length < 4 then ([], none) else ([], some .undefinedInstruction)
      | .error e => ([], some e)
      | .ok i => (disLoop D fuel (data.drop i.size) (a + i.size)).cons i

theorem size_pos (i : Instr) : 2 ≤ i.size := by unfold Instr.size; split <;> omega

theorem disasmLoop_eq (D : List Nat → Int → PyRes Instr) : ∀ (n : Nat) (ts : Trees) (data : List Nat) (a : Int) (off : Nat) (e : Int),
    (∀ x b, (ts.decode x b).1 = D x b) → off ≤ data.length ∨ e ≤ a → e - a = (data.length : Int) - off →
    disasmLoop n ts data e a off = disLoop D n (data.drop off) a
  | 0, _, _, _, _, _, _, _, _ => rfl
  | n + 1, ts, data, a, off, e, hD, ho, he => by
    rw [disasmLoop, disLoop]
    by_cases hlt : a < e
    · have hne : data.drop off ≠ [] := by
        intro h
        have := congrArg List.length h
        simp at this; omega
      have hlen : ((data.drop off).length : Int) = e - a := by rw [List.length_drop]; omega
      rw [if_pos hlt, if_neg hne, ← hD]
      have hiff : (e - a < 4) = ((data.drop off).length < 4) := propext (by omega)
      cases h : ts.decode (data.drop off) a with
      | mk r ts' =>
        have hts : ∀ x b, (ts'.decode x b).1 = D x b := by
          intro x b
          have := C37.decode_decode ts (data.drop off) a x b
          rw [h] at this
          rw [this, hD]
        cases r with
        | ok i =>
          simp only
          rw [List.drop_drop, disasmLoop_eq D n ts' data (a + i.size) (off + i.size) e hts (by omega) (by omega)]
        | error x => cases x <;> simp only [hiff]
    · rw [if_neg hlt, if_pos (List.drop_eq_nil_of_le (by omega))]

/-- The decoder as a function. -/
def decodeAt (data : List Nat) (a : Int) : PyRes Instr := (trees.decode data a).1

theorem disasm_eq (ts : Trees) (h : ∀ x b, (ts.decode x b).1 = decodeAt x b) (data : List Nat) (a : Int) :
    disasm ts data a = disLoop decodeAt (data.length + 1) data a := by
  rw [disasm, disasmLoop_eq decodeAt _ ts data a 0 _ h (by omega) (by omega), List.drop_zero]

/-- More iterations change nothing. -/
theorem disLoop_fuel (D : List Nat → Int → PyRes Instr) : ∀ (n m : Nat) (data : List Nat) (a : Int), data.length ≤ n →
    data.length ≤ m → disLoop D n data a = disLoop D m data a
  | 0, 0, _, _, _, _ => rfl
  | 0, m + 1, data, a, h, _ => by
    have : data = [] := List.length_eq_zero_iff.mp (by omega)
    subst this; rfl
  | n + 1, 0, data, a, _, h => by
    have : data = [] := List.length_eq_zero_iff.mp (by omega)
    subst this; rfl
  | n + 1, m + 1, data, a, hn, hm => by
    rw [disLoop, disLoop]
    split
    · rfl
    · split
      · rfl
      · rfl
      · next i _ =>
        have := size_pos i
        rw [disLoop_fuel D n m (data.drop i.size) (a + i.size) (by rw [List.length_drop]; omega) (by rw [List.length_drop]; omega)]

/-- The result without a bound. -/
def dis (data : List Nat) (a : Int) : Yields := disLoop decodeAt data.length data a

theorem dis_eq {data : List Nat} {a : Int} : dis data a =
    if data = [] then ([], none)
    else match decodeAt data a with
      | .error .undefinedInstruction => if data.length < 4 then ([], none) else ([], some .undefinedInstruction)
      | .error e => ([], some e)
      | .ok i => (dis (data.drop i.size) (a + i.size)).cons i := by
  rw [dis, disLoop_fuel decodeAt data.length (data.length + 1) data a (by omega) (by omega), disLoop]
  split
  · rfl
  · split
    · next h => rfl
    · rfl
    · next i _ =>
      have := size_pos i
      rw [dis, disLoop_fuel decodeAt _ (data.drop i.size).length _ _ (by rw [List.length_drop]; omega) (by omega)]

theorem disasm_dis (ts : Trees) (h : ∀ x b, (ts.decode x b).1 = decodeAt x b) (data : List Nat) (a : Int) :
    disasm ts data a = dis data a := by
  rw [disasm_eq ts h, dis, disLoop_fuel decodeAt _ data.length _ _ (by omega) (by omega)]

end Verif
