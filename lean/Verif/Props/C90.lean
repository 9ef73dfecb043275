import Verif.Lemmas.Shipped
import Verif.Props.C72to73

/-!
# C90: any delegate
-/

namespace Verif
open BS Thumb

namespace C90

/-- **C90.** With the delegate that the project ships, the model for any delegate is the model of the machine. -/
theorem shipped (i : Instr) (s : Machine) : Any.eval i s = i.eval s := Any.same_eval i s

/-- **C90.** The same for a list of instructions. -/
theorem shipped_all (is : List Instr) (s : Machine) : Any.executeAll is s = executeAll is s := Any.same_executeAll is s

/-- **C90.** Executing an instruction on two delegates that answer alike has the same result, and they still
answer alike: nothing but the answers of the delegate matters. -/
theorem alike {σ τ : Type} [Delegate σ] [Delegate τ] {R : σ → τ → Prop} (h : Alike R) (i : Instr) {s : σ} {t : τ} (hst : R s t) :
    (Any.eval i s).1 = (Any.eval i t).1 ∧ R (Any.eval i s).2 (Any.eval i t).2 := Any.sim_eval h i s t hst

/-- **C90.** The same for a list of instructions. -/
theorem alike_all {σ τ : Type} [Delegate σ] [Delegate τ] {R : σ → τ → Prop} (h : Alike R) (is : List Instr) {s : σ} {t : τ} (hst : R s t) :
    (Any.executeAll is s).1 = (Any.executeAll is t).1 ∧ R (Any.executeAll is s).2 (Any.executeAll is t).2 :=
  Any.sim_executeAll h is s t hst

/-- **C90.** On every delegate that answers like the shipped one, decoding and executing gives what the
manual says, under the conditions of C72. -/
theorem decode_execute_partial {σ : Type} [Delegate σ] {R : σ → Machine → Prop} (hR : Alike R) (e : Enc) (he : e ∈ encodings) (w : Nat)
    (h : e.Is w) (hx : ¬ Wrong e (field e.pat w)) (hp : (e.act (field e.pat w)).NoPc) (rest : List Nat) (hr : ∀ b ∈ rest, b < 256)
    (address : Int) {d : σ} {s : Machine} {c : Core} (hd : R d s) (hs : Shows s c) (hm : MemOK s.mem)
    (hf : C72.Fine s.mem c (e.act (field e.pat w))) :
    ∃ i i' d' s', (trees.decode (C38.bytesOf e w ++ rest) address).1 = .ok i ∧ Any.eval i d = (.ok i', d') ∧ R d' s' ∧
      Shows s' ((e.act (field e.pat w)).run (e.pat.length / 8) c) ∧ MemOK s'.mem := by
  obtain ⟨i, i', s', h1, h2, h3, h4⟩ := C72.decode_execute_partial e he w h hx hp rest hr address hs hm hf
  obtain ⟨g1, g2⟩ := alike hR i hd
  rw [shipped, h2] at g1 g2
  exact ⟨i, i', (Any.eval i d).2, s', h1, Prod.ext g1 rfl, g2, h3, h4⟩

/-! ### A delegate that records the calls -/

/-- A call of a delegate. -/
inductive Call where
  | readRegister (reg : Option Int)
  | writeRegister (reg : Option Int) (value : Int)
  | readMemory (addr : Int) (size : Nat)
  | writeMemory (addr value : Int) (size : Nat)
deriving DecidableEq, Repr

/-- A delegate together with the calls made to it. -/
structure Logged (σ : Type) where
  state : σ
  log : List Call

/-- Note the call, then forward it. -/
def Logged.call {σ α : Type} (k : Call) (x : Run σ α) : Run (Logged σ) α := fun s => ((x s.state).1, ⟨(x s.state).2, s.log ++ [k]⟩)

instance {σ : Type} [Delegate σ] : Delegate (Logged σ) where
  readRegister k := Logged.call (.readRegister k) (Delegate.readRegister k)
  writeRegister k v := Logged.call (.writeRegister k v) (Delegate.writeRegister k v)
  readMemory a n := Logged.call (.readMemory a n) (Delegate.readMemory a n)
  writeMemory a v n := Logged.call (.writeMemory a v n) (Delegate.writeMemory a v n)

theorem call_sim {σ α : Type} (k : Call) (x : Run σ α) : Sim (fun s t => s.state = t) (Logged.call k x) x := by
  rintro s t rfl
  exact ⟨rfl, rfl⟩

/-- A recorded delegate answers like the delegate itself. -/
theorem logged_alike {σ : Type} [Delegate σ] : Alike (σ := Logged σ) (τ := σ) (fun s t => s.state = t) where
  readRegister _ := call_sim _ _
  writeRegister _ _ := call_sim _ _
  readMemory _ _ := call_sim _ _
  writeMemory _ _ _ := call_sim _ _

/-- **C90.** Recording the calls changes nothing, for every delegate. -/
theorem logging {σ : Type} [Delegate σ] (i : Instr) (s : σ) (log : List Call) :
    ∃ log', Any.eval i (⟨s, log⟩ : Logged σ) = ((Any.eval i s).1, ⟨(Any.eval i s).2, log'⟩) := by
  obtain ⟨h1, h2⟩ := alike (logged_alike (σ := σ)) i (s := ⟨s, log⟩) rfl
  exact ⟨(Any.eval i (⟨s, log⟩ : Logged σ)).2.log, Prod.ext h1 (by rw [← h2])⟩

/-- The object of `ldr r1, [r0, #4]`. -/
def exInstr : Option Instr := (trees.decode [0x41, 0x68] 0).1.toOption

/-- The calls of `ldr r1, [r0, #4]`: the address, the word, the result, and the next instruction. -/
example : (exInstr.map fun i => (Any.eval i (⟨sample [(0, 0x100), (15, 0x10)], []⟩ : Logged Machine)).2.log) =
    some [.readRegister (some 0), .readMemory 0x104 32, .writeRegister (some 1) 0, .readRegister (some 15), .writeRegister (some 15) 0x12] := by
  rw [exInstr, trees, decoders_eq]
  decide +kernel

/-- With a delegate of the base class, whose methods return `None`, registers read as bitstrings of no width,
and loads give zero: nothing raises. -/
example : (exInstr.map fun i => (Any.eval i (⟨⟨⟩, []⟩ : Logged BaseDelegate)).2.log) =
    some [.readRegister (some 0), .readMemory 0 32, .writeRegister (some 1) 0, .readRegister (some 15), .writeRegister (some 15) 0] := by
  rw [exInstr, trees, decoders_eq]
  decide +kernel

/-- **C90.** Without a size, memory is accessed by words. -/
theorem default_size {σ : Type} [Delegate σ] (addr value : Num) :
    Any.readMemory (σ := σ) addr = Any.readMemory addr 32 ∧ Any.writeMemory (σ := σ) addr value = Any.writeMemory addr value 32 ∧
      readMemory addr = readMemory addr 32 ∧ writeMemory addr value = writeMemory addr value 32 :=
  ⟨rfl, rfl, rfl, rfl⟩

end C90
end Verif
