import Verif.Spec.Text
import Verif.Format

/-!
# Reading what was written
-/

namespace Verif
namespace Reader

theorem digit_digitChar {d : Nat} (h : d < 16) : digit d.digitChar = some d := by
  revert d; decide

theorem digits_append (base : Nat) : ∀ (s t : Str) (v : Nat), digits base v (s ++ t) = (digits base v s).bind fun x => digits base x t
  | [], _, _ => rfl
  | c :: s, t, v => by
    simp only [List.cons_append, digits]
    cases digit c with
    | none => rfl
    | some d =>
      simp only
      split
      · exact digits_append base s t _
      · rfl

theorem digits_toDigits {base : Nat} (h1 : 1 < base) (h16 : base ≤ 16) (n : Nat) : digits base 0 (Nat.toDigits base n) = some n := by
  induction n using Nat.strongRecOn with
  | _ n ih =>
    rw [Nat.toDigits_eq_if h1]
    split
    · next h => simp [digits, digit_digitChar (show n < 16 by omega), h]
    · next h =>
      rw [digits_append, ih _ (Nat.div_lt_self (by omega) h1)]
      have hm := Nat.mod_lt n (show base > 0 by omega)
      have := Nat.div_add_mod n base
      simp [digits, digit_digitChar (show n % base < 16 by omega), hm, this]

theorem nat_natText {base : Nat} (h1 : 1 < base) (h16 : base ≤ 16) (n : Nat) : nat base (BS.natText base n) = some n := by
  unfold BS.natText
  rw [nat, if_neg Nat.toDigits_ne_nil]
  exact digits_toDigits h1 h16 n

theorem digits_zeros (base : Nat) (h : 0 < base) : ∀ (k : Nat) (s : Str), digits base 0 (List.replicate k '0' ++ s) = digits base 0 s
  | 0, _ => rfl
  | k + 1, s => by
    rw [List.replicate_succ, List.cons_append]
    simp only [digits]
    rw [show digit '0' = some 0 from by decide]
    simp only [if_pos h, Nat.mul_zero, Nat.add_zero]
    exact digits_zeros base h k s

theorem nat_hex4 (n : Nat) : nat 16 (hex4 n) = some n := by
  unfold hex4
  rw [nat, if_neg (by simp [BS.natText, Nat.toDigits_ne_nil]), digits_zeros 16 (by decide)]
  exact digits_toDigits (by decide) (by decide) n

theorem hex_digit {c : Char} {n : Nat} (h : c ∈ BS.natText 16 n) : (digit c).isSome := by
  have := digits_toDigits (base := 16) (by decide) (by decide) n
  revert this
  unfold BS.natText at h
  generalize Nat.toDigits 16 n = s at h
  generalize 0 = v
  intro hs
  induction s generalizing v with
  | nil => cases h
  | cons x t ih =>
    simp only [digits] at hs
    cases hd : digit x with
    | none => rw [hd] at hs; cases hs
    | some d =>
      rw [hd] at hs
      simp only at hs
      rcases List.mem_cons.1 h with rfl | h
      · rw [hd]; rfl
      · split at hs
        · exact ih h _ hs
        · cases hs

theorem dec_digit {c : Char} {n : Nat} (h : c ∈ BS.natText 10 n) : (digit c).isSome := by
  have := digits_toDigits (base := 10) (by decide) (by decide) n
  revert this
  unfold BS.natText at h
  generalize Nat.toDigits 10 n = s at h
  generalize 0 = v
  intro hs
  induction s generalizing v with
  | nil => cases h
  | cons x t ih =>
    simp only [digits] at hs
    cases hd : digit x with
    | none => rw [hd] at hs; cases hs
    | some d =>
      rw [hd] at hs
      simp only at hs
      rcases List.mem_cons.1 h with rfl | h
      · rw [hd]; rfl
      · split at hs
        · exact ih h _ hs
        · cases hs

theorem int_of_nat {base : Nat} (s : Str) (h : ∀ c ∈ s, (digit c).isSome) : int base s = (nat base s).map fun (v : Nat) => (v : Int) := by
  unfold int
  split
  · exact absurd (h _ List.mem_cons_self) (by decide)
  · exact absurd (h _ List.mem_cons_self) (by decide)
  · rfl

theorem int_intText10 (v : Int) : int 10 (intText 10 v) = some v := by
  unfold intText
  split
  · simp only [int, nat_natText (base := 10) (by decide) (by decide), Option.map_some]
    congr 1; omega
  · rw [int_of_nat _ fun c hc => dec_digit hc, nat_natText (by decide) (by decide), Option.map_some]
    congr 1; omega

theorem int_intText16 (v : Int) : int 16 (intText 16 v) = some v := by
  unfold intText
  split
  · simp only [int, nat_natText (base := 16) (by decide) (by decide), Option.map_some]
    congr 1; omega
  · rw [int_of_nat _ fun c hc => hex_digit hc, nat_natText (by decide) (by decide), Option.map_some]
    congr 1; omega

theorem int_plusText (v : Int) : int 10 (plusText v) = some v := by
  unfold plusText
  split
  · exact int_intText10 v
  · next h =>
    unfold intText
    rw [if_neg h]
    simp only [int, nat_natText (base := 10) (by decide) (by decide), Option.map_some]
    congr 1; omega

theorem split_none {c : Char} : ∀ {s : Str}, c ∉ s → split c s = [s]
  | [], _ => rfl
  | x :: t, h => by
    rw [split, if_neg (show x ≠ c from fun e => h (e ▸ List.mem_cons_self)), split_none fun e => h (List.mem_cons_of_mem _ e)]

theorem split_append {c : Char} : ∀ {s : Str}, c ∉ s → ∀ t, split c (s ++ c :: t) = s :: split c t
  | [], _, t => by simp [split]
  | x :: s, h, t => by
    rw [List.cons_append, split, if_neg (show x ≠ c from fun e => h (e ▸ List.mem_cons_self)), split_append fun e => h (List.mem_cons_of_mem _ e)]

theorem joinWith_cons (sep s t : Str) (l : List Str) : joinWith sep (s :: t :: l) = s ++ sep ++ joinWith sep (t :: l) := by
  simp [joinWith, List.intercalate]

theorem joinWith_single (sep s : Str) : joinWith sep [s] = s := by simp [joinWith, List.intercalate]

theorem split_join {c : Char} : ∀ {l : List Str}, l ≠ [] → (∀ s ∈ l, c ∉ s) → split c (joinWith [c] l) = l
  | [], h, _ => absurd rfl h
  | [s], _, h => by rw [joinWith_single, split_none (h s List.mem_cons_self)]
  | s :: t :: l, _, h => by
    rw [joinWith_cons, List.append_assoc]
    show split c (s ++ (c :: joinWith [c] (t :: l))) = _
    rw [split_append (h s List.mem_cons_self), split_join (by simp) fun x hx => h x (List.mem_cons_of_mem _ hx)]

end Reader
end Verif
