import Verif.Props.C27to30
import Verif.Props.C75
import Verif.Props.C90
import Verif.Lemmas.Startup
import Verif.Lemmas.Changes

/-!
# C108: what no session can change
-/

namespace Verif
open Console Typed BS

namespace C108

attribute [local irreducible] trees disasm Instr.eval Instr.format

/-- A property of the machine that the writing calls of the delegate keep. -/
structure Stable (I : Machine → Prop) : Prop where
  register : ∀ k v s, I s → I (delegateWriteRegister k v s).2
  memory : ∀ a v n s, I s → I (delegateWriteMemory a v n s).2
  block : ∀ a data s, (∀ b ∈ data, b < 256) → I s → I (writeMemoryBlock a data s).2

/-- Code that keeps a property of the machine, also if it fails. -/
def Preserves {α : Type} (I : Machine → Prop) (x : ConM α) : Prop := ∀ w, I w.cpu → I (x w).2.cpu

section
variable {α β : Type} {I : Machine → Prop}

theorem of_keeps {x : ConM α} (h : Keeps x) : Preserves I x := fun w hw => by rw [h w]; exact hw

theorem bind {x : ConM α} {f : α → ConM β} (h : Preserves I x) (h' : ∀ a, Preserves I (f a)) : Preserves I (x >>= f) := by
  intro w hw
  rw [ConM.bind_def]
  have h1 := h w hw
  cases hx : x w with
  | mk r w' =>
    rw [hx] at h1
    cases r with
    | ok a => exact h' a w' h1
    | error e' => exact h1

theorem of_cpu {x : CpuM α} (h : ∀ s, I s → I (x s).2) : Preserves I (cpu x) := by
  intro w hw
  have := h w.cpu hw
  unfold cpu
  split <;> rename_i hx <;> rw [hx] at this <;> exact this

theorem delegateReadMemory_keeps (a : Int) (n : Nat) : CpuKeeps (delegateReadMemory a n) := by
  intro s
  unfold delegateReadMemory
  split
  · rfl
  · split
    · rfl
    · split
      · rfl
      · split <;> rfl

/-- Executing an instruction keeps what the delegate keeps. -/
theorem eval_keeps (hI : Stable I) (i : Instr) (s : Machine) (hs : I s) : I (i.eval s).2 := by
  have ha : Alike (σ := Machine) (τ := Machine) (fun s t => s = t ∧ I s) :=
    { readRegister := by
        rintro k s _ ⟨rfl, h⟩
        refine ⟨rfl, rfl, ?_⟩
        show I (match delegateReadRegister k s with
          | (.ok v, s') => ((.ok (.int v) : PyRes PyVal), s')
          | (.error e, s') => (.error e, s')).2
        unfold delegateReadRegister
        cases s.regs k <;> exact h
      writeRegister := by
        rintro k v s _ ⟨rfl, h⟩
        exact ⟨rfl, rfl, hI.register _ _ _ h⟩
      readMemory := by
        rintro a n s _ ⟨rfl, h⟩
        refine ⟨rfl, rfl, ?_⟩
        show I (delegateReadMemory a n s).2
        rw [delegateReadMemory_keeps]
        exact h
      writeMemory := by
        rintro a v n s _ ⟨rfl, h⟩
        exact ⟨rfl, rfl, hI.memory _ _ _ _ h⟩ }
  have := (C90.alike ha i (s := s) (t := s) ⟨rfl, hs⟩).2.2
  rwa [C90.shipped] at this

/-- The values given to `write` are bytes. -/
theorem byteValues_bytes : ∀ (args : List Str) (w w' : World) (l : List Nat), byteValues args w = (.ok l, w') → ∀ b ∈ l, b < 256
  | [], w, w', l, h => by
    cases h
    intro b hb
    cases hb
  | a :: t, w, w', l, h => by
    unfold byteValues at h
    rw [ConM.bind_def] at h
    split at h
    · rename_i v w1 hv
      split at h
      · rename_i hr
        rw [ConM.bind_def] at h
        split at h
        · rename_i vs w2 hvs
          have ih := byteValues_bytes t _ _ _ hvs
          cases h
          intro b hb
          rcases List.mem_cons.1 hb with rfl | hb
          · omega
          · exact ih b hb
        · cases h
      · cases h
    · cases h

theorem leByte_lt (v : Int) (i : Nat) : leByte v i < 256 := by
  rw [leByte_eq_byteOf]
  exact byteOf_lt v i

theorem dataBytes_bytes (width : Nat) {l : List Nat} (h : ∀ b ∈ l, b < 256) : ∀ b ∈ dataBytes width l, b < 256 := by
  unfold dataBytes
  split
  · exact h
  · split
    · intro b hb
      unfold u16leListToByteList at hb
      obtain ⟨x, -, hb⟩ := List.mem_flatMap.1 hb
      simp only [List.mem_cons, List.not_mem_nil, or_false] at hb
      rcases hb with rfl | rfl <;> exact leByte_lt _ _
    · intro b hb
      unfold u32leListToByteList at hb
      obtain ⟨x, -, hb⟩ := List.mem_flatMap.1 hb
      simp only [List.mem_cons, List.not_mem_nil, or_false] at hb
      rcases hb with rfl | rfl | rfl | rfl <;> exact leByte_lt _ _

theorem doWrite_preserves (hI : ∀ a data s, (∀ b ∈ data, b < 256) → I s → I (writeMemoryBlock a data s).2) (width : Nat) (args : List Str) : Preserves I (doWrite width args) := by
  unfold doWrite
  split
  · exact of_keeps (keeps_print _)
  · refine bind (of_keeps (keeps_convertValue _)) fun addr => ?_
    split
    · exact of_keeps (keeps_print _)
    · rename_i t _
      intro w hw
      rw [ConM.bind_def]
      have h1 := keeps_byteValues t w
      cases hx : byteValues t w with
      | mk r w' =>
        rw [hx] at h1
        cases r with
        | ok l =>
          refine of_cpu (fun s hs => hI _ _ _ (dataBytes_bytes width (byteValues_bytes _ _ _ _ hx)) hs) w' ?_
          rw [h1]; exact hw
        | error e => show I w'.cpu; rw [h1]; exact hw

theorem handleStep_preserves (hI : Stable I) : Preserves I handleStep := by
  unfold handleStep
  refine bind (of_keeps keeps_evenPc) fun pc w hw => ?_
  have h : Preserves I (stepBody pc) := by
    unfold stepBody
    refine bind (of_keeps (keeps_cpu (readMemoryBlock_keeps _ _))) fun c => ?_
    split
    · exact of_keeps (keeps_raise _)
    · split
      · exact of_keeps (keeps_raise _)
      · exact of_keeps (keeps_print _)
      · refine bind (of_keeps (keeps_expr _)) fun p => ?_
        refine bind (of_keeps (keeps_print _)) fun _ => ?_
        exact bind (of_cpu fun s hs => eval_keeps hI _ s hs) fun _ => of_keeps (keeps_pure _)
  have h1 := h w hw
  unfold stepTry
  split
  · rename_i hx
    rw [hx] at h1
    exact h1
  · exact h1

theorem handleWriteReg_preserves (hI : Stable I) (args : List Str) : Preserves I (handleWriteReg args) := by
  unfold handleWriteReg
  split
  · exact bind (of_keeps (keeps_convertValue _)) fun _ => of_cpu fun s hs => hI.register _ _ _ hs
  · exact of_keeps (keeps_raise _)

theorem handle_preserves (hI : Stable I) (c : Command) (args : List Str) : Preserves I (handle c args) := by
  cases hc : c.Shows with
  | true => exact of_keeps (keeps_handle args hc)
  | false =>
    cases c with
    | wreg => exact handleWriteReg_preserves hI args
    | step => exact handleStep_preserves hI
    | write w => exact doWrite_preserves hI.block w args
    | info | reg | reset | read | disasm | map | log | exit => cases hc

theorem named_preserves (hI : Stable I) (name : Str) (args : List Str) : Preserves I (named name args) := by
  unfold named
  split
  · unfold showHelp listCommands
    split
    · exact of_keeps (keeps_printAll _)
    · exact of_keeps (keeps_pure _)
  · split
    · exact of_keeps (keeps_handleReg _)
    · split
      · exact of_keeps (keeps_print _)
      · exact handle_preserves hI _ _

/-- Whatever is reported: the machine is what the code left. -/
theorem catching_preserves {x : ConM Unit} (h : Preserves I x) : Preserves I (catching x) := by
  intro w hw
  have := h w hw
  unfold catching
  split
  · rename_i hx; rw [hx] at this; exact this
  · rename_i hx; rw [hx] at this; exact this
  · rename_i hx; rw [hx] at this; exact this
  · exact this

/-- The command is Python code. -/
def IsPython (cmd : Str) : Prop := ∃ a args, WordsOf cmd (a :: args) ∧ a.head? = some '$'

/-- Python code keeps the property, or the command is none. -/
theorem command_preserves (hI : Stable I) {python : Python} {cmd : Str} (hp : IsPython cmd → ∀ code, Preserves I (python code)) :
    Preserves I (processCommand python cmd) := by
  unfold processCommand
  refine catching_preserves ?_
  rcases C75.words_cases cmd with h1 | ⟨a, args, h1⟩
  · rw [dispatch_none python h1]
    exact of_keeps (keeps_raise _)
  · by_cases hd : a.head? = some '$'
    · rw [dispatch_python python h1 hd]
      intro w hw
      have := hp ⟨a, args, h1, hd⟩ (strip (cmd.drop 1)) w hw
      unfold handlePython
      split
      · rename_i hx; rw [hx] at this; exact this
      · rename_i hx; rw [hx] at this; exact this
      · exact this
    · rw [dispatch_named python h1 hd]
      exact named_preserves hI _ _

theorem commands_preserves (hI : Stable I) {python : Python} :
    ∀ {l : List Str}, (∀ c ∈ l, IsPython c → ∀ code, Preserves I (python code)) → Preserves I (processCommands python l)
  | [], _ => of_keeps (keeps_pure _)
  | _ :: _, h => bind (command_preserves hI (h _ List.mem_cons_self)) fun _ =>
    commands_preserves hI fun d hd => h d (List.mem_cons_of_mem _ hd)

/-- No Python code is typed: no line, and no part of a line between semicolons, has a first word that
begins with `$`. -/
def NoPython (lines : List Str) : Prop := ∀ l ∈ lines, ∀ t, Stripped l t → ¬ IsPython t ∧ ∀ cs, Parts t cs → ∀ c ∈ cs, ¬ IsPython c

/-- **C108.** A property of the machine that every single write keeps is kept by every session without
Python code, and by every session if Python code keeps it, however the commands fail. -/
theorem session_preserves (hI : Stable I) {python : Python} : ∀ {lines : List Str} {last : Str},
    (NoPython lines ∧ (last ≠ [] → ¬ IsPython last) ∨ ∀ code, Preserves I (python code)) → Preserves I (session python lines last)
  | [], _, _ => of_keeps (keeps_print _)
  | l :: ls, last, h => by
    have hs : (¬ IsPython (strip l) ∧ ∀ cs, Parts (strip l) cs → ∀ c ∈ cs, ¬ IsPython c) ∨ ∀ code, Preserves I (python code) :=
      h.imp_left fun h => h.1 l List.mem_cons_self _ (strip_iff.1 rfl)
    have ht : NoPython ls ∨ ∀ code, Preserves I (python code) := h.imp_left fun h => fun m hm => h.1 m (List.mem_cons_of_mem _ hm)
    unfold session
    simp only
    split
    · refine bind ?_ fun _ => session_preserves hI ?_
      · refine commands_preserves hI fun c hc hi => ?_
        rcases hs with hs | hs
        · exact absurd hi (hs.2 _ (parts _) c hc)
        · exact hs
      · rcases h with h | h
        · refine .inl ⟨fun m hm => h.1 m (List.mem_cons_of_mem _ hm), fun _ => ?_⟩
          exact (h.1 l List.mem_cons_self _ (strip_iff.1 rfl)).1
        · exact .inr h
    · split
      · rename_i hn
        refine bind (command_preserves hI fun hi => ?_) fun _ => session_preserves hI ?_
        · rcases h with h | h
          · exact absurd hi (h.2 hn)
          · exact h
        · exact h.imp_left fun h => ⟨fun m hm => h.1 m (List.mem_cons_of_mem _ hm), h.2⟩
      · exact session_preserves hI (h.imp_left fun h => ⟨fun m hm => h.1 m (List.mem_cons_of_mem _ hm), h.2⟩)

end

/-- What stays true: every register exists; SP and MSP are equal and, like PSP, multiples of 4; PRIMASK
and FAULTMASK are 0 or 1 and BASEPRI is a byte; the memory map is `map`, a list of first and last addresses; memory consists
of bytes, and there is one for each address. -/
structure Sound (map : List (Int × Int)) (m : Machine) : Prop where
  registers : ∀ p ∈ coreRegister, ∃ v, m.regs (some p.2) = some v
  sp : m.regs (some 13) = m.regs (some 17)
  aligned : ∀ k v, k = 13 ∨ k = 17 ∨ k = 18 → m.regs (some k) = some v → v % 4 = 0
  masks : ∀ k v, k = -1 ∨ k = -3 → m.regs (some k) = some v → v = 0 ∨ v = 1
  basepri : ∀ v, m.regs (some (-2)) = some v → 0 ≤ v ∧ v < 256
  map : m.mem.map (fun r => (r.start, r.stop)) = map
  bytes : ∀ r ∈ m.mem, ∀ b ∈ r.data, b < 256
  full : ∀ r ∈ m.mem, ∀ a : Int, r.start ≤ a → a ≤ r.stop → ∃ b, r.data[(a - r.start).toNat]? = some b

theorem updMem_bytes {x : Int} {n : Nat} {new : List Nat} (hn : ∀ b ∈ new, b < 256) : ∀ {mem : List Region},
    (∀ r ∈ mem, ∀ b ∈ r.data, b < 256) → ∀ r ∈ updMem x n new mem, ∀ b ∈ r.data, b < 256
  | [], h => h
  | m :: t, h => by
    unfold updMem
    split
    · intro r hr
      rcases List.mem_cons.1 hr with rfl | hr
      · intro b hb
        simp only [putBytes, List.append_assoc, List.mem_append] at hb
        rcases hb with hb | hb | hb
        · exact h m List.mem_cons_self b (List.mem_of_mem_take hb)
        · exact hn b hb
        · exact h m List.mem_cons_self b (List.mem_of_mem_drop hb)
      · exact h r (List.mem_cons_of_mem _ hr)
    · intro r hr
      rcases List.mem_cons.1 hr with rfl | hr
      · exact h _ List.mem_cons_self
      · exact updMem_bytes hn (fun r hr => h r (List.mem_cons_of_mem _ hr)) r hr

theorem full_iff {mem : List Region} : MemFull mem ↔
    ∀ r ∈ mem, ∀ a : Int, r.start ≤ a → a ≤ r.stop → ∃ b, r.data[(a - r.start).toNat]? = some b := by
  constructor
  · intro h r hr a h1 h2
    have := h r hr
    exact ⟨_, List.getElem?_eq_getElem (by omega)⟩
  · intro h r hr
    by_cases hs : r.start ≤ r.stop
    · obtain ⟨b, hb⟩ := h r hr r.stop hs (Int.le_refl _)
      have := (List.getElem?_eq_some_iff.1 hb).1
      omega
    · omega

theorem sound_mem {map : List (Int × Int)} {s : Machine} (h : Sound map s) {x : Int} {n : Nat} {new : List Nat} (hl : new.length = n)
    (hn : ∀ b ∈ new, b < 256) : Sound map { s with mem := updMem x n new s.mem } where
  registers := h.registers
  sp := h.sp
  aligned := h.aligned
  masks := h.masks
  basepri := h.basepri
  map := (updMem_bounds _ _ _ _).trans h.map
  bytes := updMem_bytes hn h.bytes
  full := full_iff.1 (updMem_full hl (full_iff.2 h.full))

theorem sound_register {map : List (Int × Int)} {s s' : Machine} (h : Sound map s) (hm : s'.mem = s.mem) {k x : Int}
    (h0 : s'.regs (some k) = some (kept k x)) (h1 : k = 13 → s'.regs (some 17) = some (kept k x)) (h2 : k = 17 → s'.regs (some 13) = some (kept k x))
    (h3 : ∀ j, j ≠ some k → ¬ (k = 13 ∧ j = some 17) → ¬ (k = 17 ∧ j = some 13) → s'.regs j = s.regs j) : Sound map s' := by
  -- every register is what it was, or has got the value
  have hj : ∀ j, s'.regs (some j) = s.regs (some j) ∨ (j = k ∨ k = 13 ∧ j = 17 ∨ k = 17 ∧ j = 13) ∧ s'.regs (some j) = some (kept k x) := by
    intro j
    by_cases e : j = k
    · subst e; exact .inr ⟨.inl rfl, h0⟩
    · by_cases e1 : k = 13 ∧ j = 17
      · obtain ⟨rfl, rfl⟩ := e1
        exact .inr ⟨.inr (.inl ⟨rfl, rfl⟩), h1 rfl⟩
      · by_cases e2 : k = 17 ∧ j = 13
        · obtain ⟨rfl, rfl⟩ := e2
          exact .inr ⟨.inr (.inr ⟨rfl, rfl⟩), h2 rfl⟩
        · refine .inl (h3 _ ?_ ?_ ?_)
          · simpa using e
          · simpa using e1
          · simpa using e2
  refine ⟨?_, ?_, ?_, ?_, ?_, by rw [hm]; exact h.map, by rw [hm]; exact h.bytes, by rw [hm]; exact h.full⟩
  · intro p hp
    rcases hj p.2 with e | ⟨-, e⟩
    · rw [e]; exact h.registers p hp
    · exact ⟨_, e⟩
  · by_cases e : k = 13
    · subst e; rw [h0, h1 rfl]
    · by_cases e' : k = 17
      · subst e'; rw [h0, h2 rfl]
      · rw [h3 _ (by simp; omega) (by simp) (by simp [e']), h3 _ (by simp; omega) (by simp [e]) (by simp), h.sp]
  · intro j v hjk hv
    rcases hj j with e | ⟨hc, e⟩
    · rw [e] at hv; exact h.aligned j v hjk hv
    · rw [e] at hv
      cases hv
      have : k = 13 ∨ k = 17 ∨ k = 18 := by omega
      unfold kept
      rw [if_neg (by omega), if_neg (by omega), if_pos this]
      omega
  · intro j v hjk hv
    rcases hj j with e | ⟨hc, e⟩
    · rw [e] at hv; exact h.masks j v hjk hv
    · rw [e] at hv
      cases hv
      unfold kept
      rw [if_pos (by omega)]
      omega
  · intro v hv
    rcases hj (-2) with e | ⟨hc, e⟩
    · rw [e] at hv; exact h.basepri v hv
    · rw [e] at hv
      cases hv
      unfold kept
      rw [if_neg (by omega), if_pos (by omega)]
      omega

theorem sound_stable (map : List (Int × Int)) : Stable (Sound map) where
  register k v s h := by
    cases k with
    | none =>
      have : (delegateWriteRegister none v s).2 = setKey none (maskReg none v) s := rfl
      rw [this]
      refine ⟨fun p hp => ?_, ?_, ?_, ?_, ?_, h.map, h.bytes, h.full⟩
      · simpa [setKey] using h.registers p hp
      · simpa [setKey] using h.sp
      · simpa [setKey] using h.aligned
      · simpa [setKey] using h.masks
      · simpa [setKey] using h.basepri
    | some i =>
      obtain ⟨s', he, hm, h0, h1, h2, h3⟩ := C28.write_spec s (r := .idx i) (k := i) rfl (.int v)
      have hw : delegateWriteRegister (some i) v s = (.ok (), s') := he
      rw [hw]
      exact sound_register h hm h0 h1 h2 h3
  memory a v n s h := by
    unfold delegateWriteMemory
    have hb : ∀ k, ∀ b ∈ (List.range k).map (leByte v), b < 256 := by
      intro k b hb
      obtain ⟨i, -, rfl⟩ := List.mem_map.1 hb
      exact leByte_lt _ _
    split
    · exact h
    · split
      · split
        · exact sound_mem h rfl fun b hb => by
            rw [List.mem_singleton] at hb
            omega
        · exact h
      · split
        · exact sound_mem h (by simp [le16ToBytes]) (hb 2)
        · split
          · exact sound_mem h (by simp [le32ToBytes]) (hb 4)
          · exact h
  block a data s hd h := by
    unfold writeMemoryBlock
    split
    · exact h
    · exact sound_mem h rfl hd

/-- The memory map for a binary file: flash memory of at least 64 KiB from 0, and RAM of at least 64 KiB
from 0x1fff8000 up to the initial stack pointer, the first word of the file. -/
def mapOf (binary : List Nat) : List (Int × Int) :=
  [(0, max 0x10000 (binary.length : Int) - 1), (0x1fff8000, 0x1fff8000 + max 0x10000 ((wordAt binary 0 : Int) - 0x1fff8000) - 1)]

theorem sound_start {binary : List Nat} (hb : ∀ b ∈ binary, b < 256) :
    Sound (mapOf binary) { Machine.new with mem := [flashRegion binary, ramRegion (wordAt binary 0)] } where
  registers := by
    have : ∀ p ∈ coreRegister, (Machine.new.regs (some p.2)).isSome := by decide +kernel
    intro p hp
    exact Option.isSome_iff_exists.1 (this p hp)
  sp := rfl
  aligned := by
    rintro k v (rfl | rfl | rfl) hv <;> (have : some (0 : Int) = some v := hv) <;> cases this <;> rfl
  masks := by
    rintro k v (rfl | rfl) hv <;> (have : some (0 : Int) = some v := hv) <;> cases this <;> exact .inl rfl
  basepri := by
    intro v hv
    have : some (0 : Int) = some v := hv
    cases this
    decide
  map := by
    simp only [List.map_cons, List.map_nil, flashRegion, ramRegion, mapOf, flashSize, ramSize, List.cons.injEq, Prod.mk.injEq, and_true, true_and]
    omega
  bytes := by
    intro r hr b hbr
    simp only [List.mem_cons, List.not_mem_nil, or_false] at hr
    rcases hr with rfl | rfl
    · simp only [flashRegion, putBytes, List.append_assoc, List.mem_append] at hbr
      rcases hbr with h | h | h
      · rw [List.eq_of_mem_replicate (List.mem_of_mem_take h)]; decide
      · exact hb b h
      · rw [List.eq_of_mem_replicate (List.mem_of_mem_drop h)]; decide
    · simp only [ramRegion] at hbr
      rw [List.eq_of_mem_replicate hbr]; decide
  full := by
    refine full_iff.1 fun r hr => ?_
    simp only [List.mem_cons, List.not_mem_nil, or_false] at hr
    rcases hr with rfl | rfl
    · have hl : binary.length ≤ flashSize binary := by unfold flashSize; omega
      unfold flashRegion
      simp only
      rw [putBytes_length _ _ _ _ (by simpa using hl) rfl, List.length_replicate]
      omega
    · unfold ramRegion
      simp only [List.length_replicate]
      omega

theorem setPc_keeps {I : Machine → Prop} (hI : Stable I) (b : Bool) (v : Num) (s : Machine) (hs : I s) : I (setIf b (setPc v) s).2 := by
  unfold setIf
  split
  · exact hI.register _ _ _ hs
  · exact hs

theorem setSp_keeps {I : Machine → Prop} (hI : Stable I) (b : Bool) (v : Num) (s : Machine) (hs : I s) : I (setIf b (setSp v) s).2 := by
  unfold setIf
  split
  · exact hI.register _ _ _ hs
  · exact hs

theorem readMemory_keeps (a : Num) : CpuKeeps (readMemory a) := by
  intro s
  unfold readMemory
  rw [CpuM.bind_def]
  have := delegateReadMemory_keeps a.toInt 32 s
  split <;> rename_i hx <;> rw [hx] at this <;> exact this

theorem reset_preserves {I : Machine → Prop} (hI : Stable I) : Preserves I resetSim := by
  unfold resetSim
  refine bind (of_keeps (keeps_cpu (readMemory_keeps _))) fun _ => ?_
  refine bind (of_keeps (keeps_cpu fun _ => rfl)) fun _ => ?_
  refine bind (of_cpu (setPc_keeps hI _ _)) fun _ => ?_
  refine bind (of_keeps (keeps_cpu (readMemory_keeps _))) fun _ => ?_
  refine bind (of_keeps (keeps_cpu fun _ => rfl)) fun _ => ?_
  refine bind (of_cpu (setSp_keeps hI _ _)) fun _ => ?_
  exact of_keeps (keeps_printAll _)

theorem run_cpu (python : Python) (binary : List Nat) (lines : List Str) :
    (Console.run python binary lines).2.cpu = (toolBody python binary lines ⟨Machine.new, []⟩).2.cpu := by
  unfold Console.run
  split <;> rename_i hx <;> rw [hx]

/-- **C108.** In every simulation of every binary file, whatever is typed and however the commands fail,
all registers exist, SP is MSP, the stack pointers are multiples of 4, PRIMASK, FAULTMASK and BASEPRI are in range, the
memory map is the one of the start, and each of its addresses holds a byte; provided Python code typed keeps this. -/
theorem always {python : Python} {binary : List Nat} (hb : ∀ b ∈ binary, b < 256) {lines : List Str}
    (h : NoPython lines ∨ ∀ code, Preserves (Sound (mapOf binary)) (python code)) :
    Sound (mapOf binary) (Console.run python binary lines).2.cpu := by
  have hI := sound_stable (mapOf binary)
  rw [run_cpu]
  unfold toolBody
  rw [ConM.bind_ok (cpu_ok (createSim_ok hb Machine.new rfl))]
  refine bind (reset_preserves hI) (fun _ => session_preserves hI ?_) _ (sound_start hb)
  exact h.imp_left fun h => ⟨h, fun hn => absurd rfl hn⟩

theorem mem_parts {t : Str} {cs : List Str} (h : Parts t cs) : ∀ c ∈ cs, ∀ x ∈ c, x ∈ t := by
  induction h with
  | last _ =>
    intro c hc x hx
    rw [List.mem_singleton] at hc
    subst hc
    exact hx
  | more _ _ ih =>
    intro c hc x hx
    rcases List.mem_cons.1 hc with rfl | hc
    · exact List.mem_append_left _ hx
    · exact List.mem_append_right _ (List.mem_cons_of_mem _ (ih c hc x hx))

theorem mem_stripped {l t : Str} (h : Stripped l t) : ∀ x ∈ t, x ∈ l := by
  cases h with
  | empty _ => intro x hx; cases hx
  | full _ _ _ _ _ => intro x hx; exact List.mem_append_right _ (List.mem_append_left _ hx)

theorem python_dollar {cmd : Str} (h : IsPython cmd) : '$' ∈ cmd := by
  obtain ⟨a, args, hw, hd⟩ := h
  cases hw with
  | word _ _ _ _ _ => exact List.mem_append_right _ (List.mem_append_left _ (List.mem_of_mem_head? hd))

/-- Lines without a dollar sign are no Python code. -/
theorem noPython_of {lines : List Str} (h : ∀ l ∈ lines, '$' ∉ l) : NoPython lines := fun l hl _ ht =>
  ⟨fun hp => h l hl (mem_stripped ht _ (python_dollar hp)), fun _ hc c hm hp => h l hl (mem_stripped ht _ (mem_parts hc c hm _ (python_dollar hp)))⟩

/-- **C108.** What is mapped at the end of a session is what was mapped at its start, and every register
that is named in the table of registers can be read. -/
theorem lookups {python : Python} {binary : List Nat} (hb : ∀ b ∈ binary, b < 256) {lines : List Str} (h : ∀ l ∈ lines, '$' ∉ l) :
    (∀ a : Int, (findMem (Console.run python binary lines).2.cpu.mem a).isSome ↔
      0 ≤ a ∧ a < max 0x10000 (binary.length : Int) ∨ 0x1fff8000 ≤ a ∧ a < 0x1fff8000 + max 0x10000 ((wordAt binary 0 : Int) - 0x1fff8000)) ∧
    ∀ p ∈ coreRegister, ∃ b, readRegister (.name p.1) (Console.run python binary lines).2.cpu = (.ok b, (Console.run python binary lines).2.cpu) := by
  have hs := always (python := python) hb (lines := lines) (.inl (noPython_of h))
  generalize (Console.run python binary lines).2.cpu = m at hs
  constructor
  · intro a
    have hm := hs.map
    have : (findMem m.mem a).isSome ↔ ∃ p ∈ m.mem.map (fun r => (r.start, r.stop)), p.1 ≤ a ∧ a ≤ p.2 := by
      unfold findMem
      rw [Option.isSome_map, List.find?_isSome]
      constructor
      · rintro ⟨r, hr, hh⟩
        exact ⟨_, List.mem_map_of_mem hr, has_iff.1 hh⟩
      · rintro ⟨p, hp, hh⟩
        obtain ⟨r, hr, rfl⟩ := List.mem_map.1 hp
        exact ⟨r, hr, has_iff.2 hh⟩
    rw [this, hm]
    unfold mapOf
    simp only [List.mem_cons, List.not_mem_nil, or_false, exists_eq_or_imp, exists_eq_left]
    omega
  · intro p hp
    obtain ⟨v, hv⟩ := hs.registers p hp
    have hi : ∀ q ∈ coreRegister, registerIndex (.name q.1) = some q.2 := by decide +kernel
    unfold readRegister
    rw [CpuM.bind_def]
    unfold delegateReadRegister
    rw [hi p hp, hv]
    exact ⟨_, rfl⟩

/-- A stack pointer that is no multiple of 4, a mask that is too large, a write to an unknown register and one past
the end of the RAM. -/
def rough : List Str := [c! "wreg msp 0x20000007; wreg primask 3", c! "wreg nothing 5; ww 0x20007ffe 0x55", c! "wreg basepri 0x1234", c! "s"]

def image0 : List Nat := [0, 0x80, 0, 0x20, 9, 0, 0, 0, 0x12, 0x20]

example : Sound [(0, 0xffff), (0x1fff8000, 0x20007fff)] (Console.run C67.noPython image0 rough).2.cpu := by
  have := always (python := C67.noPython) (binary := image0) (by decide) (lines := rough) (.inl (noPython_of (by decide)))
  have hm : mapOf image0 = [(0, 0xffff), (0x1fff8000, 0x20007fff)] := by decide +kernel
  rwa [hm] at this

/-- What the session leaves: MSP and SP rounded down, the masks, and a longer RAM. -/
example : let m := (Console.run C67.noPython image0 rough).2.cpu
    [m.regs (some 13), m.regs (some 17), m.regs (some (-1)), m.regs (some (-2)), m.regs none] =
      [some 0x20000004, some 0x20000004, some 1, some 0x34, some 5] ∧ m.mem.map (·.data.length) = [0x10000, 0x10002] := by
  refine ⟨?_, ?_⟩ <;> decide +kernel

end C108
end Verif
