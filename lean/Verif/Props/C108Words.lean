import Verif.Props.C108
import Verif.Props.C70

/-!
# C108: registers are words, unless `wreg` is given something else
-/

namespace Verif
open Console Typed BS

namespace C108

attribute [local irreducible] trees disasm Instr.eval Instr.format

/-- The machine is sound and its registers are words. -/
def Worded (map : List (Int × Int)) (s : Machine) : Prop := Sound map s ∧ Regs32 s

theorem bind_inv {α β : Type} {x : ConM α} {f : α → ConM β} {w : World} {v : β} (h : ((x >>= f) w).1 = .ok v) :
    ∃ a w', x w = (.ok a, w') ∧ (f a w').1 = .ok v := by
  rw [ConM.bind_def] at h
  cases hx : x w with
  | mk r w' =>
    rw [hx] at h
    cases r with
    | ok a => exact ⟨a, w', rfl, h⟩
    | error e => cases h

theorem expr_inv {α : Type} {x : PyRes α} {w w' : World} {a : α} (h : expr x w = (.ok a, w')) : x = .ok a ∧ w' = w := by
  unfold expr at h
  cases x with
  | ok b => cases h; exact ⟨rfl, rfl⟩
  | error e => cases h

theorem shows_of {s : Machine} (h : Regs32 s) : ∃ c : Core, Shows s c := by
  refine ⟨⟨fun k => BitVec.ofInt 32 ((s.regs (some k)).getD 0), flat s.mem⟩, fun k hk => ?_, rfl⟩
  obtain ⟨v, hv, h1, h2⟩ := h k hk
  simp only [hv, Option.getD_some, BitVec.toNat_ofInt]
  congr 1
  omega

theorem word_lt {d : List Nat} (hd : ∀ b ∈ d, b < 256) {n : Nat} (h : bytesToLe32 d = .ok n) : n < 2 ^ 32 := by
  rcases d with _ | ⟨b0, _ | ⟨b1, _ | ⟨b2, _ | ⟨b3, r⟩⟩⟩⟩
  · cases h
  · cases h
  · cases h
  · cases h
  · have e : bytesToLe32 (b0 :: b1 :: b2 :: b3 :: r) = .ok (b0 ||| (b1 <<< 8) ||| (b2 <<< 16) ||| (b3 <<< 24)) := rfl
    have h0 := hd b0 (by simp)
    have h1 := hd b1 (by simp)
    have h2 := hd b2 (by simp)
    have h3 := hd b3 (by simp)
    rw [e, C21.word32 h0 h1 h2] at h
    cases h
    omega

theorem getBytes_lt {data : List Nat} (hd : ∀ b ∈ data, b < 256) (i n : Nat) : ∀ b ∈ getBytes data i n, b < 256 :=
  fun b hb => hd b (List.mem_of_mem_drop (List.mem_of_mem_take hb))

theorem readMemoryBlock_bytes {s : Machine} (hb : ∀ r ∈ s.mem, ∀ b ∈ r.data, b < 256) {a : Int} {n : Nat} {d : List Nat} {s' : Machine}
    (h : readMemoryBlock a n s = (.ok (some d), s')) : ∀ b ∈ d, b < 256 := by
  unfold readMemoryBlock findMem at h
  cases hf : s.mem.find? (·.has a) with
  | none => rw [hf] at h; cases h
  | some m =>
    rw [hf] at h
    simp only [Option.map_some] at h
    cases h
    exact getBytes_lt (hb m (List.mem_of_find?_eq_some hf)) _ _

/-- What an argument stands for is a word, or the number that it is. -/
theorem value_word {map : List (Int × Int)} {w : World} (hw : Worded map w.cpu) {arg : Str} {v : Int} (h : (convertValue arg w).1 = .ok v) :
    0 ≤ v ∧ v < 2 ^ 32 ∨ Number (plain arg) v ∨ Long (plain arg) v := by
  obtain ⟨c, hs⟩ := shows_of hw.2
  by_cases hb : (plain arg).head? = some '['
  · left
    obtain ⟨t, ht⟩ : ∃ t, plain arg = '[' :: t := by
      cases hp : plain arg with
      | nil => rw [hp] at hb; cases hb
      | cons x t => rw [hp] at hb; cases hb; exact ⟨t, rfl⟩
    rw [C68.convertValue_brackets ht] at h
    obtain ⟨⟨a, off⟩, w1, e1, h'⟩ := bind_inv h
    clear h
    obtain ⟨-, rfl⟩ := expr_inv e1
    unfold C68.inBrackets at h'
    obtain ⟨b, w2, e2, h⟩ := bind_inv h'
    have hk := keeps_plainValue a w1
    rw [e2] at hk
    obtain ⟨block, w3, e3, h⟩ := bind_inv h
    obtain ⟨n, w4, e4, h⟩ := bind_inv h
    obtain ⟨e4, -⟩ := expr_inv e4
    have hv : v = (n : Int) := by cases h; rfl
    have hlt : n < 2 ^ 32 := by
      cases block with
      | none => cases e4
      | some d =>
        refine word_lt (fun b hb => ?_) (show bytesToLe32 d = .ok n from e4)
        rw [C68.readBlock_four] at e3
        unfold cpu at e3
        split at e3
        · rename_i d' s' hr
          cases e3
          refine readMemoryBlock_bytes (s := w2.cpu) ?_ hr b hb
          have hc : w2.cpu = w1.cpu := hk
          rw [hc]
          exact hw.1.bytes
        · cases e3
    omega
  · have hn : plain arg ≠ [] := by
      intro hn
      unfold convertValue at h
      rw [C68.cleanArg_eq, hn] at h
      cases h
    rw [C68.convertValue_direct hb hn, C68.plainValue_iff hs] at h
    cases h with
    | register hk => exact .inl ⟨Int.natCast_nonneg _, Int.ofNat_lt.2 (c.reg _).isLt⟩
    | number h => exact .inr (.inl h)
    | long h => exact .inr (.inr h)

theorem writeRegister_words {s : Machine} (hs : Regs32 s) (r : RegArg) {v : Int} (h0 : 0 ≤ v) (h1 : v < 2 ^ 32) : Regs32 (writeRegister r (.int v) s).2 := by
  intro j hj
  cases hr : registerIndex r with
  | none =>
    rw [(C28.write_unknown s hr (.int v)).2.2 j]
    exact hs j hj
  | some k =>
    obtain ⟨s', he, -, e0, e1, e2, e3⟩ := C28.write_spec s hr (.int v)
    rw [he]
    have hkept : 0 ≤ kept k v ∧ kept k v < 2 ^ 32 := by
      unfold kept
      split
      · omega
      · split
        · omega
        · split <;> omega
    by_cases hk : j = k
    · subst hk; exact ⟨_, e0, hkept⟩
    · by_cases h13 : k = 13 ∧ j = 17
      · obtain ⟨rfl, rfl⟩ := h13; exact ⟨_, e1 rfl, hkept⟩
      · by_cases h17 : k = 17 ∧ j = 13
        · obtain ⟨rfl, rfl⟩ := h17; exact ⟨_, e2 rfl, hkept⟩
        · rw [e3 (some j) (by simpa using hk) (by simpa using h13) (by simpa using h17)]
          exact hs j hj

/-- A number given to `wreg` is a word. -/
def SmallArgs (args : List Str) : Prop := ∀ r b rest, args = r :: b :: rest → ∀ v, Number (plain b) v ∨ Long (plain b) v → 0 ≤ v ∧ v < 2 ^ 32

theorem wreg_words {map : List (Int × Int)} {args : List Str} (h : SmallArgs args) : Preserves (Worded map) (handleWriteReg args) := by
  intro w hw
  refine ⟨handleWriteReg_preserves (sound_stable map) args w hw.1, ?_⟩
  unfold handleWriteReg
  split
  · rename_i a b rest
    have hk := keeps_convertValue b w
    rw [ConM.bind_def]
    cases hc : convertValue b w with
    | mk r w' =>
      rw [hc] at hk
      have hk : w'.cpu = w.cpu := hk
      cases r with
      | error e => show Regs32 w'.cpu; rw [hk]; exact hw.2
      | ok v =>
        have hv : 0 ≤ v ∧ v < 2 ^ 32 := by
          rcases value_word hw (show (convertValue b w).1 = .ok v by rw [hc]) with h' | h'
          · exact h'
          · exact h _ _ _ rfl v h'
        exact of_cpu (I := Regs32) (fun s hs => writeRegister_words hs _ hv.1 hv.2) w' (by rw [hk]; exact hw.2)
  · exact hw.2

theorem first_decoded {d : List Nat} {pc : Int} {i : Instr} {t : List Instr} (h : disasm trees d pc = (i :: t, none)) :
    (trees.decode d pc).1 = .ok i := by
  unfold disasm at h
  generalize trees = ts at h
  unfold disasmLoop at h
  split at h
  · rw [List.drop_zero] at h
    split at h
    · split at h <;> cases h
    · cases h
    · rename_i j ts' hj
      rw [hj]
      have := congrArg (fun p => p.1.head?) h
      simp only [Yields.cons, List.head?_cons, Option.some.injEq] at this
      rw [this]
  · cases h

theorem step_words {map : List (Int × Int)} : Preserves (Worded map) handleStep := by
  unfold handleStep
  refine bind (of_keeps keeps_evenPc) fun pc w hw => ?_
  have h : Worded map (stepBody pc w).2.cpu := by
    unfold stepBody
    rw [ConM.bind_def]
    have hk := keeps_cpu (readMemoryBlock_keeps pc 4) w
    cases hx : cpu (readMemoryBlock pc 4) w with
    | mk r w' =>
      rw [hx] at hk
      have hk : w'.cpu = w.cpu := hk
      have hw' : Worded map w'.cpu := by rw [hk]; exact hw
      cases r with
      | error e => exact hw'
      | ok code =>
        cases code with
        | none => exact hw'
        | some d =>
          have hd : ∀ b ∈ d, b < 256 := by
            unfold cpu at hx
            split at hx
            · rename_i hr
              cases hx
              exact readMemoryBlock_bytes hw.1.bytes hr
            · cases hx
          simp only
          generalize hdis : disasm trees d pc = y
          match y, hdis with
          | (_, some e), _ => exact hw'
          | ([], none), _ => exact hw'
          | (i :: t, none), hdis =>
            have hf : FromBytes i := ⟨d, pc, hd, first_decoded hdis⟩
            simp only
            rw [ConM.bind_def]
            cases hfm : i.format with
            | error e => exact hw'
            | ok p =>
              obtain ⟨txt, i'⟩ := p
              refine bind (I := Worded map) (of_keeps (keeps_print _)) (fun _ => bind (of_cpu fun s hs => ?_) fun _ => of_keeps (keeps_pure _)) w' hw'
              refine ⟨eval_keeps (sound_stable map) _ s hs.1, ?_⟩
              obtain ⟨c, hc⟩ := shows_of hs.2
              rw [(C64.executes_the_same hf hfm hc).1]
              obtain ⟨act, ha, hv⟩ := C31.decoded_act hf
              exact C31.one ha hv hs.2
  unfold stepTry
  split
  · rename_i hx
    rw [hx] at h
    exact h
  · exact h

theorem write_words {map : List (Int × Int)} (width : Nat) (args : List Str) : Preserves (Worded map) (doWrite width args) :=
  doWrite_preserves (fun a data s hd h => ⟨(sound_stable map).block a data s hd h.1, by
    unfold writeMemoryBlock
    split
    · exact h.2
    · exact h.2⟩) width args

theorem wreg_name : ∀ p ∈ commandList, p.2 = .wreg → p.1 = c! "wreg" := by decide +kernel

theorem named_words {map : List (Int × Int)} {name : Str} {args : List Str} (h : name = c! "wreg" → SmallArgs args) :
    Preserves (Worded map) (named name args) := by
  unfold named
  split
  · unfold showHelp listCommands
    split
    · exact of_keeps (keeps_printAll _)
    · exact of_keeps (keeps_pure _)
  · split
    · exact of_keeps (keeps_handleReg _)
    · split
      · exact of_keeps (keeps_print _)
      · rename_i c hc
        cases hs : c.Shows with
        | true => exact of_keeps (keeps_handle args hs)
        | false =>
          cases c with
          | wreg => exact wreg_words (h (wreg_name _ (lookup_mem hc) rfl))
          | step => exact step_words
          | write w => exact write_words w args
          | info | reg | reset | read | disasm | map | log | exit => cases hs

/-- The command is no Python code, and no `wreg` with a number that is no word. -/
def Harmless (cmd : Str) : Prop := ¬ IsPython cmd ∧ ∀ args, Says cmd (c! "wreg") args → SmallArgs args

theorem command_words {map : List (Int × Int)} (python : Python) {cmd : Str} (h : Harmless cmd) : Preserves (Worded map) (processCommand python cmd) := by
  unfold processCommand
  refine catching_preserves ?_
  rcases C75.words_cases cmd with h1 | ⟨a, args, h1⟩
  · rw [dispatch_none python h1]
    exact of_keeps (keeps_raise _)
  · have hd : a.head? ≠ some '$' := fun hd => h.1 ⟨a, args, h1, hd⟩
    rw [dispatch_named python h1 hd, lower_small]
    exact named_words fun hn => h.2 args ⟨a, h1, hn⟩

theorem commands_words {map : List (Int × Int)} (python : Python) : ∀ {l : List Str}, (∀ c ∈ l, Harmless c) → Preserves (Worded map) (processCommands python l)
  | [], _ => of_keeps (keeps_pure _)
  | _ :: _, h => bind (command_words python (h _ List.mem_cons_self)) fun _ => commands_words python fun d hd => h d (List.mem_cons_of_mem _ hd)

/-- All commands that are typed are harmless. -/
def AllHarmless (lines : List Str) : Prop := ∀ l ∈ lines, ∀ t, Stripped l t → Harmless t ∧ ∀ cs, Parts t cs → ∀ c ∈ cs, Harmless c

theorem session_words {map : List (Int × Int)} (python : Python) : ∀ {lines : List Str} {last : Str}, AllHarmless lines → (last ≠ [] → Harmless last) →
    Preserves (Worded map) (session python lines last)
  | [], _, _, _ => of_keeps (keeps_print _)
  | l :: ls, last, h, hl => by
    have hs := h l List.mem_cons_self _ (strip_iff.1 rfl)
    have ht : AllHarmless ls := fun m hm => h m (List.mem_cons_of_mem _ hm)
    unfold session
    simp only
    split
    · exact bind (commands_words python (hs.2 _ (parts _))) fun _ => session_words python ht fun _ => hs.1
    · split
      · rename_i hn
        exact bind (command_words python (hl hn)) fun _ => session_words python ht hl
      · exact session_words python ht hl

/-- **C108.** All registers hold 32-bit words at all times, whatever is stepped and written, as long as `wreg` is not given a
number outside 0 .. 2 ^ 32 - 1: registers and words of memory as values of `wreg` do no harm. -/
theorem words_always (python : Python) {binary : List Nat} (hb : ∀ b ∈ binary, b < 256) (hl : binary.length ≤ 0x1fff8000) {lines : List Str}
    (h : AllHarmless lines) : ∀ p ∈ coreRegister, ∃ v : Int, (Console.run python binary lines).2.cpu.regs (some p.2) = some v ∧ 0 ≤ v ∧ v < 2 ^ 32 := by
  have key : Worded (mapOf binary) (Console.run python binary lines).2.cpu := by
    rw [run_cpu]
    have e : toolBody python binary lines = ((do cpu (createSim binary); resetSim) >>= fun _ => session python lines []) := by
      funext w
      unfold toolBody
      simp only [ConM.bind_def]
      rcases cpu (createSim binary) w with ⟨r, w'⟩
      cases r <;> rfl
    obtain ⟨s, -, -, hs, he⟩ := start_ok hb hl []
    rw [e, ConM.bind_ok he]
    refine session_words python h (fun hn => absurd rfl hn) _ ⟨?_, fun k hk => ?_⟩
    · have hr := bind (I := Sound (mapOf binary)) (x := resetSim) (f := fun _ => pure ()) (reset_preserves (sound_stable _)) (fun _ => of_keeps (keeps_pure _))
        ⟨{ Machine.new with mem := [flashRegion binary, ramRegion (wordAt binary 0)] }, []⟩ (sound_start hb)
      rw [ConM.bind_ok (cpu_ok (createSim_ok hb Machine.new rfl))] at he
      rw [ConM.bind_ok he] at hr
      exact hr
    · exact ⟨_, hs.1 k hk, by omega, by have := ((vectors (blank (image binary (wordAt binary 0)))).reg k).isLt; omega⟩
  intro p hp
  have : ∀ q ∈ coreRegister, q.2 ∈ coreIndices := by decide +kernel
  exact key.2 p.2 (this p hp)

/-- A test for harmless commands. -/
def harmlessTest (cmd : Str) : Bool :=
  match words cmd with
  | [] => true
  | a :: args => a.head? ≠ some '$' && (small a ≠ c! "wreg" ||
    match args with
    | _ :: b :: _ => (match intBase0 (plain b) with
      | .ok v => decide (0 ≤ v ∧ v < 2 ^ 32)
      | .error _ => true)
    | _ => true)

theorem harmless_of {cmd : Str} (h : harmlessTest cmd = true) : Harmless cmd := by
  constructor
  · rintro ⟨a, args, hw, hd⟩
    unfold harmlessTest at h
    rw [words_iff.2 hw] at h
    simp [hd] at h
  · rintro args ⟨a, hw, hn⟩ r b rest rfl v hv
    unfold harmlessTest at h
    rw [words_iff.2 hw] at h
    simp only [hn, ne_eq, not_true_eq_false, decide_false, Bool.false_or, int_iff.2 hv, Bool.and_eq_true, decide_eq_true_eq] at h
    exact h.2

theorem allHarmless_of {lines : List Str} (h : ∀ l ∈ lines, harmlessTest (strip l) = true ∧ ∀ c ∈ splitBy (· = ';') (strip l), harmlessTest c = true) :
    AllHarmless lines := by
  intro l hl t ht
  have := strip_iff.2 ht
  subst this
  refine ⟨harmless_of (h l hl).1, fun cs hc c hm => harmless_of ((h l hl).2 c ?_)⟩
  rw [parts_of hc]
  exact hm

/-- The largest word, a register, a word of memory and a step: all of this is harmless. -/
example : ∀ p ∈ coreRegister, ∃ v : Int, (Console.run C67.noPython image0 [c! "wreg r0 0xffffffff; wreg r1 r0", c! "wreg r2 [r3,4]; s"]).2.cpu.regs (some p.2) = some v ∧
    0 ≤ v ∧ v < 2 ^ 32 :=
  words_always C67.noPython (by decide) (by decide) (allHarmless_of (by decide +kernel))

/-- A number that is no word is kept as it is. -/
example : ((Console.run C67.noPython image0 [c! "wreg r0 0x123456789; wreg r1 -1"]).2.cpu.regs (some 0) = some 0x123456789) ∧
    ((Console.run C67.noPython image0 [c! "wreg r0 0x123456789; wreg r1 -1"]).2.cpu.regs (some 1) = some (-1)) := by
  refine ⟨?_, ?_⟩ <;> decide +kernel

end C108
end Verif
