import Verif.Lemmas.Memory

/-!
# C24 to C26: memory

The specification sees memory as `Flat`, a partial map from addresses to bytes
(`Verif/Arm.lean`): `flat mem` is that map, `flatWrite` replaces bytes, `flatRead`
assembles a little-endian number. `MemOK` says regions have the size they were created
with and do not overlap; `Inside mem x n` that the `n` bytes from `x` are in one region.
-/

namespace Verif
open BS CpuM

/-- Access sizes: 1, 2 and 4 bytes. -/
def Size (n : Nat) : Prop := n = 1 ∨ n = 2 ∨ n = 4

/-- A value a write of `n` bytes takes: a single byte must be in range, wider values are
truncated. -/
def Fits (n : Nat) (v : Int) : Prop := n = 1 → 0 ≤ v ∧ v < 256

/-- An example memory: 16 bytes at 0x1000 and 8 at 0x2000. -/
def exMem : List Region := [⟨0x1000, 0x100f, List.replicate 16 0⟩, ⟨0x2000, 0x2007, List.replicate 8 7⟩]

theorem exMem_ok : MemOK exMem := by
  constructor
  · intro m hm
    simp only [exMem, List.mem_cons, List.not_mem_nil, or_false] at hm
    rcases hm with rfl | rfl
    · exact ⟨by decide, by intro b hb; rw [List.eq_of_mem_replicate hb]; decide⟩
    · exact ⟨by decide, by intro b hb; rw [List.eq_of_mem_replicate hb]; decide⟩
  · simp only [exMem, List.pairwise_cons, List.mem_cons, List.not_mem_nil, or_false, forall_eq, false_implies,
      implies_true, and_true, List.Pairwise.nil]
    intro x
    rw [has_iff, has_iff]
    simp only
    omega

namespace C24

/-- **C24.** A write of 1, 2 or 4 bytes inside a region changes exactly those bytes of
memory, stores the value lowest byte first, and touches no register. -/
theorem write_spec {s : Machine} (hm : MemOK s.mem) {addr value : Num} {n : Nat} (hn : Size n)
    (hv : Fits n value.toInt) (hin : Inside s.mem addr.toInt n) :
    ∃ s', writeMemory addr value (8 * n) s = (.ok (), s') ∧ s'.regs = s.regs ∧ MemOK s'.mem ∧
      flat s'.mem = flatWrite (flat s.mem) addr.toInt n value.toInt ∧
      ∀ y k, Inside s'.mem y k ↔ Inside s.mem y k := by
  have h0 : 0 < n := by rcases hn with rfl | rfl | rfl <;> decide
  refine ⟨_, writeMemory_inside hm ?_ hin, rfl, ?_, ?_, ?_⟩
  · rcases hn with rfl | h | h
    · exact .inl ⟨rfl, hv rfl⟩
    · exact .inr (.inl h)
    · exact .inr (.inr h)
  · refine updMem_ok hm (by simp) h0 hin ?_
    intro b hb
    obtain ⟨i, -, rfl⟩ := List.mem_map.1 hb
    exact byteOf_lt _ _
  · exact flat_eq_flatWrite hm h0 hin
  · intro y k; exact inside_updMem

/-- **C24.** A read of 1, 2 or 4 bytes inside a region gives the little-endian number
those bytes spell, and changes nothing. -/
theorem read_spec {s : Machine} (hm : MemOK s.mem) {addr : Num} {n : Nat} (hn : Size n)
    (hin : Inside s.mem addr.toInt n) :
    ∃ v, flatRead (flat s.mem) addr.toInt n = some v ∧ v < 2 ^ (8 * n) ∧
      readMemory addr (8 * n) s = (.ok (bv (8 * n) v), s) :=
  readMemory_inside hm hn hin

/-- **C24.** Read after write at the same place returns the value (modulo the size). -/
theorem read_after_write {s s' : Machine} (hm : MemOK s.mem) {addr value : Num} {n : Nat} (hn : Size n)
    (hv : Fits n value.toInt) (hin : Inside s.mem addr.toInt n)
    (hw : writeMemory addr value (8 * n) s = (.ok (), s')) :
    readMemory addr (8 * n) s' = (.ok (bv (8 * n) (value.toInt % 2 ^ (8 * n)).toNat), s') := by
  obtain ⟨s'', h1, -, hm', hf, hi⟩ := write_spec hm hn hv hin
  rw [h1] at hw
  have : s'' = s' := by simpa using hw
  subst this
  obtain ⟨v, h2, -, h4⟩ := read_spec hm' hn ((hi _ _).2 hin)
  rw [hf, flatRead_flatWrite] at h2
  rw [h4, Int.pow_mul]
  have : v = (value.toInt % 256 ^ n).toNat := by simpa using h2.symm
  rw [this]; rfl

/-- **C24.** A write does not change what is read at a place it does not overlap. -/
theorem read_elsewhere {s s' : Machine} (hm : MemOK s.mem) {addr value other : Num} {n k : Nat} (hn : Size n)
    (hk : Size k) (hv : Fits n value.toInt) (hin : Inside s.mem addr.toInt n) (hin' : Inside s.mem other.toInt k)
    (hd : other.toInt + k ≤ addr.toInt ∨ addr.toInt + n ≤ other.toInt)
    (hw : writeMemory addr value (8 * n) s = (.ok (), s')) :
    (readMemory other (8 * k) s').1 = (readMemory other (8 * k) s).1 := by
  obtain ⟨s'', h1, -, hm', hf, hi⟩ := write_spec hm hn hv hin
  rw [h1] at hw
  have : s'' = s' := by simpa using hw
  subst this
  obtain ⟨v, h2, -, h4⟩ := read_spec hm' hk ((hi _ _).2 hin')
  obtain ⟨u, g2, -, g4⟩ := read_spec hm hk hin'
  rw [hf, flatRead_congr (g := flat s.mem) (fun y hy1 hy2 => by
    unfold flatWrite; rw [if_neg (by omega)]), g2] at h2
  have : u = v := by simpa using h2
  rw [h4, g4, this]

/-- **C24.** A value that does not fit in the byte it is written to is refused. -/
theorem byte_refused {s : Machine} {addr value : Num} (hin : Inside s.mem addr.toInt 1) (hv : ¬ Fits 1 value.toInt) :
    writeMemory addr value 8 s = (.error .valueError, s) := by
  obtain ⟨m, hm, h1, h2⟩ := hin
  have hf : ∃ p, findMem s.mem addr.toInt = some p := by
    unfold findMem
    cases hc : s.mem.find? (·.has addr.toInt) with
    | some r => exact ⟨_, rfl⟩
    | none => exact absurd (has_iff.2 ⟨h1, by omega⟩) (List.find?_eq_none.1 hc m hm)
  obtain ⟨p, hp⟩ := hf
  have hv : ¬ (0 ≤ value.toInt ∧ value.toInt < 256) := fun e => hv fun _ => e
  unfold writeMemory delegateWriteMemory
  rw [hp]
  simp only [if_true, if_neg hv]

/-- One write of a history. -/
structure Wr where
  addr : Num
  value : Num
  n : Nat

/-- Running a history of writes. -/
def run : List Wr → CpuM Unit
  | [] => pure ()
  | w :: t => do
      writeMemory w.addr w.value (8 * w.n)
      run t

/-- The last write of a history that covers an address, if any: its byte there. -/
def lastWrite : List Wr → Int → Option Nat
  | [], _ => none
  | w :: t, y => match lastWrite t y with
    | some b => some b
    | none => if w.addr.toInt ≤ y ∧ y < w.addr.toInt + w.n then some (byteOf w.value.toInt (y - w.addr.toInt).toNat)
        else none

/-- **C24.** After any history of writes inside regions, every byte of memory is the one
most recently written there, or the original one. -/
theorem history : ∀ (ws : List Wr) {s : Machine}, MemOK s.mem →
    (∀ w ∈ ws, Size w.n ∧ Fits w.n w.value.toInt ∧ Inside s.mem w.addr.toInt w.n) →
    ∃ s', run ws s = (.ok (), s') ∧ MemOK s'.mem ∧ s'.regs = s.regs ∧
      ∀ y, flat s'.mem y = match lastWrite ws y with | some b => some b | none => flat s.mem y
  | [], s, hm, _ => ⟨s, rfl, hm, rfl, fun _ => rfl⟩
  | w :: t, s, hm, h => by
    obtain ⟨h1, h2, h3⟩ := h w (by simp)
    obtain ⟨s1, e1, r1, m1, f1, i1⟩ := write_spec hm h1 h2 h3
    obtain ⟨s2, e2, m2, r2, f2⟩ := history t m1 (fun w' hw' => by
      obtain ⟨a, b, c⟩ := h w' (by simp [hw'])
      exact ⟨a, b, (i1 _ _).2 c⟩)
    refine ⟨s2, ?_, m2, r2.trans r1, ?_⟩
    · simp only [run]; rw [bind_ok e1, e2]
    · intro y
      rw [f2 y, f1]
      simp only [lastWrite]
      cases lastWrite t y with
      | some b => rfl
      | none =>
        simp only [flatWrite]
        split <;> simp_all

/-- The hypotheses hold of an example, and the theorem's answer is the expected one. -/
example : (writeMemory (.int 0x1004) (.int 256) 8 { Machine.new with mem := exMem }).1 = .error .valueError ∧
    Size 4 ∧ Fits 4 0x12345678 ∧ Inside exMem 0x1004 4 ∧
    (readMemory (.int 0x1005) 16 { Machine.new with mem := updMem 0x1004 4 [0x78, 0x56, 0x34, 0x12] exMem }).1
      = .ok (bv 16 0x3456) := by
  refine ⟨by decide +kernel, by simp [Size], by simp [Fits], ⟨_, by simp [exMem]; exact .inl rfl, by decide, by decide⟩, by decide +kernel⟩

end C24

namespace C25

/-- The address is in no region. -/
def Unmapped (mem : List Region) (x : Int) : Prop := ∀ m ∈ mem, ¬ (m.start ≤ x ∧ x ≤ m.stop)

theorem findMem_unmapped {mem : List Region} {x : Int} (h : Unmapped mem x) : findMem mem x = none := by
  unfold findMem
  rw [List.find?_eq_none.2]
  · rfl
  · intro m hm; rw [has_iff]; exact h m hm

/-- **C25.** Reading an unmapped address gives zero, whatever the size. -/
theorem read_unmapped {s : Machine} {addr : Num} (h : Unmapped s.mem addr.toInt) (size : Nat) :
    readMemory addr size s = (.ok (bv size 0), s) := by
  unfold readMemory
  have : delegateReadMemory addr.toInt size s = (.ok (.int 0), s) := by
    unfold delegateReadMemory; rw [findMem_unmapped h]
  rw [bind_ok this, init_int_width]
  show (Except.ok (ofInt ((0 : Nat) : Int) size), s) = _
  rw [ofInt_nat]

/-- **C25.** Writing an unmapped address changes nothing, whatever the value and size. -/
theorem write_unmapped {s : Machine} {addr : Num} (h : Unmapped s.mem addr.toInt) (value : Num) (size : Nat) :
    writeMemory addr value size s = (.ok (), s) := by
  unfold writeMemory delegateWriteMemory; rw [findMem_unmapped h]

/-- **C25.** Sizes other than 8, 16 and 32 bits: a read gives zero and a write changes
nothing, at any address. -/
theorem other_size {size : Nat} (h : size ≠ 8 ∧ size ≠ 16 ∧ size ≠ 32) (s : Machine) (addr value : Num) :
    readMemory addr size s = (.ok (bv size 0), s) ∧ writeMemory addr value size s = (.ok (), s) := by
  constructor
  · have : delegateReadMemory addr.toInt size s = (.ok (.int 0), s) := by
      unfold delegateReadMemory
      split
      · rfl
      · rw [if_neg h.1, if_neg h.2.1, if_neg h.2.2]
    unfold readMemory
    rw [bind_ok this, init_int_width]
    show (Except.ok (ofInt ((0 : Nat) : Int) size), s) = _
    rw [ofInt_nat]
  · unfold writeMemory delegateWriteMemory
    split
    · rfl
    · rw [if_neg h.1, if_neg h.2.1, if_neg h.2.2]

/-- **C25.** Without a size a word is read and written. -/
theorem default_size (addr value : Num) : readMemory addr = readMemory addr 32 ∧ writeMemory addr value = writeMemory addr value 32 :=
  ⟨rfl, rfl⟩

/-- 24 bits at 0x2000, where there are bytes; a word there. -/
example : (readMemory (.int 0x2000) 24 { Machine.new with mem := exMem }).1 = .ok (bv 24 0) ∧
    ((readMemory (.int 0x2000) : CpuM BS) { Machine.new with mem := exMem }).1 = .ok (bv 32 0x07070707) := by
  constructor <;> decide +kernel

/-- **C25.** An access inside a region does not fail and keeps the size of every region.
Missing from the full claim: accesses that start in a region and reach past its end,
for which it is false (`read_past_end`, `write_past_end`). -/
theorem inside_partial {s : Machine} (hm : MemOK s.mem) {addr : Num} {n : Nat} (hn : Size n)
    (hin : Inside s.mem addr.toInt n) :
    (∃ b, readMemory addr (8 * n) s = (.ok b, s)) ∧
    ∀ value : Num, Fits n value.toInt → ∃ s', writeMemory addr value (8 * n) s = (.ok (), s') ∧
      s'.mem.map (fun m => m.data.length) = s.mem.map fun m => m.data.length := by
  constructor
  · obtain ⟨v, -, -, h⟩ := C24.read_spec hm hn hin
    exact ⟨_, h⟩
  · intro value hv
    obtain ⟨s', h1, -, hm', -, hi⟩ := C24.write_spec hm hn hv hin
    refine ⟨s', h1, ?_⟩
    have h0 : 0 < n := by rcases hn with rfl | rfl | rfl <;> decide
    have hw := writeMemory_inside (value := value) hm (n := n) (by
      rcases hn with rfl | h | h
      · exact .inl ⟨rfl, hv rfl⟩
      · exact .inr (.inl h)
      · exact .inr (.inr h)) hin
    rw [hw] at h1
    have e : s'.mem = updMem addr.toInt n ((List.range n).map (byteOf value.toInt)) s.mem := by
      exact (congrArg (fun z => z.2.mem) h1).symm
    have hb := updMem_bounds addr.toInt n ((List.range n).map (byteOf value.toInt)) s.mem
    rw [← e] at hb
    have key : ∀ {l l' : List Region}, (∀ m ∈ l, (m.data.length : Int) = m.stop - m.start + 1) →
        (∀ m ∈ l', (m.data.length : Int) = m.stop - m.start + 1) →
        l'.map (fun m => (m.start, m.stop)) = l.map (fun m => (m.start, m.stop)) →
        l'.map (fun m => m.data.length) = l.map fun m => m.data.length := by
      intro l
      induction l with
      | nil => intro l' _ _ h; cases l' <;> simp_all
      | cons a t ih =>
        intro l' h1 h2 h
        cases l' with
        | nil => simp at h
        | cons a' t' =>
          simp only [List.map_cons, List.cons.injEq, Prod.mk.injEq] at h ⊢
          refine ⟨?_, ih (fun m hm => h1 m (by simp [hm])) (fun m hm => h2 m (by simp [hm])) h.2⟩
          have e1 := h1 a (by simp); have e2 := h2 a' (by simp); omega
    exact key (fun m hm2 => (hm.1 m hm2).1) (fun m hm2 => (hm'.1 m hm2).1) hb

/-- **C25.** Byte accesses that start in a region never reach past it, so they never fail. -/
theorem byte_access {s : Machine} (hm : MemOK s.mem) {addr : Num} (h : ¬ Unmapped s.mem addr.toInt) :
    Inside s.mem addr.toInt 1 := by
  unfold Unmapped at h
  simp only [Classical.not_forall, Classical.not_not] at h
  obtain ⟨m, hmem, h1, h2⟩ := h
  exact ⟨m, hmem, h1, by omega⟩

/-- **C25.** A 2 or 4 byte read that starts in a region and reaches past its end raises
`IndexError`. -/
theorem read_past_end {s : Machine} (hm : MemOK s.mem) {addr : Num} {n : Nat} (hn : n = 2 ∨ n = 4)
    {m : Region} (hmem : m ∈ s.mem) (h1 : m.start ≤ addr.toInt) (h2 : addr.toInt ≤ m.stop)
    (h3 : m.stop < addr.toInt + n - 1) :
    readMemory addr (8 * n) s = (.error .indexError, s) := by
  have hf : findMem s.mem addr.toInt = some (m, (addr.toInt - m.start).toNat) := by
    unfold findMem; rw [find_of_mem hm.2 hmem (has_iff.2 ⟨h1, h2⟩)]; rfl
  have hl := (hm.1 m hmem).1
  have hlen : ∀ k, (getBytes m.data (addr.toInt - m.start).toNat k).length
      = min k (m.data.length - (addr.toInt - m.start).toNat) := by
    intro k; unfold getBytes; rw [List.length_take, List.length_drop]
  unfold readMemory
  have short16 : ∀ l : List Nat, l.length < 2 → bytesToLe16 l = .error .indexError := by
    intro l hl
    match l with
    | [] => rfl
    | [_] => rfl
    | _ :: _ :: _ => simp only [List.length_cons] at hl; omega
  have short32 : ∀ l : List Nat, l.length < 4 → bytesToLe32 l = .error .indexError := by
    intro l hl
    match l with
    | [] => rfl
    | [_] => rfl
    | [_, _] => rfl
    | [_, _, _] => rfl
    | _ :: _ :: _ :: _ :: _ => simp only [List.length_cons] at hl; omega
  rcases hn with rfl | rfl
  · have : delegateReadMemory addr.toInt 16 s = (.error .indexError, s) := by
      unfold delegateReadMemory
      rw [hf]
      simp only [show (16 = 8) = False by simp, if_false, if_true]
      rw [short16 _ (by rw [hlen]; omega)]; rfl
    rw [bind_err this]
  · have : delegateReadMemory addr.toInt 32 s = (.error .indexError, s) := by
      unfold delegateReadMemory
      rw [hf]
      simp only [show (32 = 8) = False by simp, show (32 = 16) = False by simp, if_false, if_true]
      rw [short32 _ (by rw [hlen]; omega)]; rfl
    rw [bind_err this]

/-- **C25.** The write that reaches past the end of a region does not fail but makes the
region's buffer longer than its address range. -/
theorem write_past_end {s : Machine} (hm : MemOK s.mem) {addr value : Num} {n : Nat} (hn : n = 2 ∨ n = 4)
    {m : Region} (hmem : m ∈ s.mem) (h1 : m.start ≤ addr.toInt) (h2 : addr.toInt ≤ m.stop)
    (h3 : m.stop < addr.toInt + n - 1) :
    ∃ s' m', writeMemory addr value (8 * n) s = (.ok (), s') ∧ m' ∈ s'.mem ∧
      m'.start = m.start ∧ m'.stop = m.stop ∧
      (m'.data.length : Int) = addr.toInt - m.start + n ∧ m.data.length < m'.data.length := by
  have hf : findMem s.mem addr.toInt = some (m, (addr.toInt - m.start).toNat) := by
    unfold findMem; rw [find_of_mem hm.2 hmem (has_iff.2 ⟨h1, h2⟩)]; rfl
  have hl := (hm.1 m hmem).1
  have key : ∀ new : List Nat, new.length = n →
      ∃ m', m' ∈ updMem addr.toInt n new s.mem ∧ m'.start = m.start ∧ m'.stop = m.stop ∧
        (m'.data.length : Int) = addr.toInt - m.start + n ∧ m.data.length < m'.data.length := by
    intro new hnew
    refine ⟨updRegion addr.toInt n new m, ?_, ?_⟩
    · rw [updMem_eq_map hm.2]; exact List.mem_map.2 ⟨m, hmem, rfl⟩
    · unfold updRegion
      rw [if_pos (has_iff.2 ⟨h1, h2⟩)]
      refine ⟨rfl, rfl, ?_⟩
      simp only [putBytes, List.length_append, List.length_take, List.length_drop, hnew]
      omega
  unfold writeMemory delegateWriteMemory
  rw [hf]
  rcases hn with rfl | rfl
  · obtain ⟨m', k1, k2⟩ := key (le16ToBytes value.toInt) rfl
    exact ⟨_, m', rfl, k1, k2⟩
  · obtain ⟨m', k1, k2⟩ := key (le32ToBytes value.toInt) rfl
    exact ⟨_, m', rfl, k1, k2⟩

theorem getBytes_putBytes (data new : List Nat) (i n : Nat) (h : i ≤ data.length) (hn : new.length = n) :
    getBytes (putBytes data i n new) i n = new := by
  unfold getBytes putBytes
  rw [List.append_assoc, List.drop_append_of_le_length (by rw [List.length_take]; omega), List.drop_eq_nil_of_le (by rw [List.length_take]; omega),
    List.nil_append, List.take_append_of_le_length (by omega), List.take_of_length_le (by omega)]

/-- **C25.** So what was written past the end of a region can be read back there, by a read of the same size, although
its last bytes have no address: after the write the read that raised `IndexError` does not. -/
theorem past_end_read_back {s s' : Machine} (hm : MemOK s.mem) {addr value : Num} {n : Nat} (hn : n = 2 ∨ n = 4)
    (hu : ¬ Unmapped s.mem addr.toInt) (hw : writeMemory addr value (8 * n) s = (.ok (), s')) :
    readMemory addr (8 * n) s' = (.ok (bv (8 * n) (value.toInt % 2 ^ (8 * n)).toNat), s') := by
  unfold Unmapped at hu
  simp only [Classical.not_forall, Classical.not_not] at hu
  obtain ⟨m, hmem, h1, h2⟩ := hu
  have hl := (hm.1 m hmem).1
  have hf : findMem s.mem addr.toInt = some (m, (addr.toInt - m.start).toNat) := by
    unfold findMem; rw [find_of_mem hm.2 hmem (has_iff.2 ⟨h1, h2⟩)]; rfl
  have key : ∀ new : List Nat, new.length = n → ∃ m', findMem (updMem addr.toInt n new s.mem) addr.toInt = some (m', (addr.toInt - m.start).toNat) ∧
      getBytes m'.data (addr.toInt - m.start).toNat n = new := by
    intro new hnew
    refine ⟨{ m with data := putBytes m.data (addr.toInt - m.start).toNat n new }, ?_, getBytes_putBytes _ _ _ _ (by omega) hnew⟩
    unfold findMem
    rw [updMem_eq_map hm.2, List.find?_map]
    have : (fun r : Region => r.has addr.toInt) ∘ updRegion addr.toInt n new = fun r => r.has addr.toInt := by
      funext r; simp [updRegion_has]
    rw [this, find_of_mem hm.2 hmem (has_iff.2 ⟨h1, h2⟩)]
    simp only [Option.map_some]
    unfold updRegion
    rw [if_pos (has_iff.2 ⟨h1, h2⟩)]
  unfold writeMemory delegateWriteMemory at hw
  rw [hf] at hw
  rcases hn with rfl | rfl
  · obtain ⟨m', k1, k2⟩ := key (le16ToBytes value.toInt) rfl
    have hw : ({ s with mem := updMem addr.toInt 2 (le16ToBytes value.toInt) s.mem } : Machine) = s' := congrArg Prod.snd hw
    subst hw
    unfold readMemory
    have : delegateReadMemory addr.toInt 16 { s with mem := updMem addr.toInt 2 (le16ToBytes value.toInt) s.mem } =
        (.ok (.int ((value.toInt % 2 ^ 16).toNat : Int)), { s with mem := updMem addr.toInt 2 (le16ToBytes value.toInt) s.mem }) := by
      unfold delegateReadMemory
      rw [k1]
      simp only [show (16 = 8) = False by simp, if_false, if_true]
      rw [k2, show bytesToLe16 (le16ToBytes value.toInt) = _ by simpa using C21.le16_roundtrip value.toInt [] []]; rfl
    rw [bind_ok this]
    show (init (.int _) (some ((16 : Nat) : Int)), _) = _
    rw [init_int_width, ofInt_nat]
  · obtain ⟨m', k1, k2⟩ := key (le32ToBytes value.toInt) rfl
    have hw : ({ s with mem := updMem addr.toInt 4 (le32ToBytes value.toInt) s.mem } : Machine) = s' := congrArg Prod.snd hw
    subst hw
    unfold readMemory
    have : delegateReadMemory addr.toInt 32 { s with mem := updMem addr.toInt 4 (le32ToBytes value.toInt) s.mem } =
        (.ok (.int ((value.toInt % 2 ^ 32).toNat : Int)), { s with mem := updMem addr.toInt 4 (le32ToBytes value.toInt) s.mem }) := by
      unfold delegateReadMemory
      rw [k1]
      simp only [show (32 = 8) = False by simp, show (32 = 16) = False by simp, if_false, if_true]
      rw [k2, show bytesToLe32 (le32ToBytes value.toInt) = _ by simpa using C21.le32_roundtrip value.toInt [] []]; rfl
    rw [bind_ok this]
    show (init (.int _) (some ((32 : Nat) : Int)), _) = _
    rw [init_int_width, ofInt_nat]

/-- Reading the word at the last byte of a region, before and after writing it. -/
example :
    let s : Machine := { Machine.new with mem := exMem }
    (readMemory (.int 0x100f) 32 s).1 = .error .indexError ∧
    (readMemory (.int 0x100f) 32 (writeMemory (.int 0x100f) (.int 0x12345678) 32 s).2).1 = .ok (bv 32 0x12345678) := by
  refine ⟨?_, ?_⟩ <;> decide +kernel

/-- **C25.** The full claim is false: a word read at the last byte of a region fails, and
a word write there changes the size of the buffer from 16 to 19 bytes. -/
theorem full_claim_false :
    (readMemory (.int 0x100f) 32 { Machine.new with mem := exMem }).1 = .error .indexError ∧
    ((writeMemory (.int 0x100f) (.int 0) 32 { Machine.new with mem := exMem }).2.mem.map fun m => m.data.length)
      = [19, 8] := by decide +kernel

example : Unmapped exMem 0x1800 ∧ Inside exMem 0x2004 4 ∧ MemOK exMem := by
  refine ⟨?_, ⟨_, by simp [exMem]; exact .inr rfl, by decide, by decide⟩, exMem_ok⟩
  intro m hm
  simp only [exMem, List.mem_cons, List.not_mem_nil, or_false] at hm
  rcases hm with rfl | rfl <;> simp

end C25

namespace C26

theorem getElem_getBytes (data : List Nat) (i n j : Nat) (h : j < n) : (getBytes data i n)[j]? = data[i + j]? := by
  unfold getBytes
  rw [List.getElem?_take, if_pos h, List.getElem?_drop]

theorem getBytes_length (data : List Nat) (i n : Nat) (h : i + n ≤ data.length) : (getBytes data i n).length = n := by
  unfold getBytes; rw [List.length_take, List.length_drop]; omega

/-- **C26.** A block write inside a region changes exactly its bytes. -/
theorem block_write {s : Machine} (hm : MemOK s.mem) {addr : Int} {data : List Nat} (h0 : data ≠ [])
    (hb : ∀ b ∈ data, b < 256) (hin : Inside s.mem addr data.length) :
    ∃ s', writeMemoryBlock addr data s = (.ok (), s') ∧ s'.regs = s.regs ∧ MemOK s'.mem ∧
      ∀ y, flat s'.mem y = if addr ≤ y ∧ y < addr + data.length then data[(y - addr).toNat]? else flat s.mem y := by
  have hl : 0 < data.length := by
    cases data with
    | nil => exact absurd rfl h0
    | cons a t => simp
  obtain ⟨p, hp⟩ := findMem_inside hm hl hin
  refine ⟨{ s with mem := updMem addr data.length data s.mem }, ?_, rfl, updMem_ok hm rfl hl hin hb,
    fun y => flat_updMem hm rfl hl hin y⟩
  unfold writeMemoryBlock; rw [hp]

/-- **C26.** A block read inside a region gives the bytes at its addresses. -/
theorem block_read {s : Machine} (hm : MemOK s.mem) {addr : Int} {n : Nat} (h0 : 0 < n) (hin : Inside s.mem addr n) :
    ∃ data, readMemoryBlock addr n s = (.ok (some data), s) ∧ data.length = n ∧
      ∀ j : Nat, j < n → data[j]? = flat s.mem (addr + j) := by
  obtain ⟨m, hmem, hf, h1, h2, hb⟩ := find_inside hm h0 hin
  have hl := (hm.1 m hmem).1
  refine ⟨getBytes m.data (addr - m.start).toNat n, ?_, getBytes_length _ _ _ (by omega), ?_⟩
  · unfold readMemoryBlock
    rw [show findMem s.mem addr = some (m, (addr - m.start).toNat) by unfold findMem; rw [hf]; rfl]
  · intro j hj
    obtain ⟨b, f, d, -⟩ := hb j hj
    rw [getElem_getBytes _ _ _ _ hj, d, f]

/-- **C26.** Reading back a block gives what was stored. -/
theorem block_roundtrip {s s' : Machine} (hm : MemOK s.mem) {addr : Int} {data : List Nat} (h0 : data ≠ [])
    (hb : ∀ b ∈ data, b < 256) (hin : Inside s.mem addr data.length)
    (hw : writeMemoryBlock addr data s = (.ok (), s')) :
    readMemoryBlock addr data.length s' = (.ok (some data), s') := by
  have hl : 0 < data.length := by
    cases data with
    | nil => exact absurd rfl h0
    | cons a t => simp
  obtain ⟨s'', h1, -, hm', hf⟩ := block_write hm h0 hb hin
  have e : s'' = s' := by rw [h1] at hw; simpa using hw
  subst e
  have hin' : Inside s''.mem addr data.length := by
    have : s''.mem = updMem addr data.length data s.mem := by
      obtain ⟨p, hp⟩ := findMem_inside hm hl hin
      unfold writeMemoryBlock at h1
      rw [hp] at h1
      exact (congrArg (fun z => z.2.mem) h1).symm
    rw [this]; exact inside_updMem.2 hin
  obtain ⟨d, hr, hlen, hd⟩ := block_read hm' hl hin'
  rw [hr]
  congr 3
  apply List.ext_getElem?
  intro j
  by_cases hj : j < data.length
  · rw [hd j hj, hf, if_pos (by omega)]
    congr 1; omega
  · rw [List.getElem?_eq_none (by omega), List.getElem?_eq_none (by omega)]

/-- **C26.** The bytes of a block read are those the byte reads give. -/
theorem block_bytes {s : Machine} (hm : MemOK s.mem) {addr : Int} {n : Nat} (h0 : 0 < n) (hin : Inside s.mem addr n) :
    ∃ data, readMemoryBlock addr n s = (.ok (some data), s) ∧
      ∀ j : Nat, j < n → ∃ b, data[j]? = some b ∧ readMemory (.int (addr + j)) 8 s = (.ok (bv 8 b), s) := by
  obtain ⟨d, hr, -, hd⟩ := block_read hm h0 hin
  refine ⟨d, hr, ?_⟩
  intro j hj
  have hin1 : Inside s.mem (Num.int (addr + j)).toInt 1 := by
    obtain ⟨m, hmem, h1, h2⟩ := hin
    exact ⟨m, hmem, by simp only [Num.toInt]; omega, by simp only [Num.toInt]; omega⟩
  obtain ⟨v, h1, -, h3⟩ := C24.read_spec hm (.inl rfl) hin1
  refine ⟨v, ?_, h3⟩
  rw [hd j hj]
  simp only [flatRead, Num.toInt] at h1
  cases hf : flat s.mem (addr + j) with
  | none => rw [hf] at h1; simp at h1
  | some b => rw [hf] at h1; simpa using h1

/-- **C26.** A word write is the same as a block write of its four bytes, lowest first. -/
theorem word_is_block {s : Machine} (hm : MemOK s.mem) {addr value : Num} (hin : Inside s.mem addr.toInt 4) :
    writeMemory addr value 32 s = writeMemoryBlock addr.toInt (le32ToBytes value.toInt) s := by
  obtain ⟨p, hp⟩ := findMem_inside hm (by decide) hin
  unfold writeMemory delegateWriteMemory writeMemoryBlock
  rw [hp]; rfl

/-- **C26.** An unmapped block address: the read returns `None`, the write does nothing. -/
theorem block_unmapped {s : Machine} {addr : Int} (h : C25.Unmapped s.mem addr) (n : Nat) (data : List Nat) :
    readMemoryBlock addr n s = (.ok none, s) ∧ writeMemoryBlock addr data s = (.ok (), s) := by
  unfold readMemoryBlock writeMemoryBlock
  rw [C25.findMem_unmapped h]; exact ⟨rfl, rfl⟩

example : (readMemoryBlock 0x2001 3 (writeMemoryBlock 0x2000 [1, 2, 3, 4, 5] { Machine.new with mem := exMem }).2).1
    = .ok (some [2, 3, 4]) := by decide +kernel

end C26
end Verif
