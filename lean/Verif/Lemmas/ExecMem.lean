import Verif.Lemmas.Exec

/-!
# What executing loads, stores and system instructions does, exactly

`peek` and `poke` are reads and writes of memory regions without the rest of the machine.
-/

namespace Verif
open BS CpuM Thumb Exec

/-! ### Reading and writing regions -/

/-- What reading `n` bytes gives. -/
def peek (mem : List Region) (x : Int) (n : Nat) : PyRes Nat :=
  match findMem mem x with
  | none => .ok 0
  | some (m, off) =>
    if n = 1 then .ok (bytesValue (getBytes m.data off 1) 0 0)
    else if n = 2 then bytesToLe16 (getBytes m.data off 2)
    else bytesToLe32 (getBytes m.data off 4)

/-- The regions after writing `n` bytes. -/
def poke (mem : List Region) (x : Int) (n : Nat) (v : Int) : List Region :=
  updMem x n ((List.range n).map (byteOf v)) mem

/-- Reading, as a word of `8 * n` bits. -/
def peekWord (mem : List Region) (x : Int) (n : Nat) : PyRes BS :=
  match peek mem x n with
  | .ok v => .ok (bv (8 * n) v)
  | .error e => .error e

theorem readMemory_peek (s : Machine) (x : Num) {n : Nat} (hn : n = 1 ∨ n = 2 ∨ n = 4) :
    readMemory x (8 * n) s = (peekWord s.mem x.toInt n, s) := by
  unfold readMemory peekWord peek
  rw [bind_def]
  unfold delegateReadMemory
  cases findMem s.mem x.toInt with
  | none =>
    show (init (.int 0) (some ((8 * n : Nat) : Int)), s) = _
    rw [init_int_width]
    show (Except.ok (ofInt ((0 : Nat) : Int) (8 * n)), s) = _
    rw [ofInt_nat]
  | some p =>
    obtain ⟨m, off⟩ := p
    rcases hn with rfl | rfl | rfl
    · show (Except.ok (ofInt (bytesValue (getBytes m.data off 1) 0 0 : Nat) 8), s) = _
      rw [ofInt_nat]; rfl
    · simp only [if_false, if_true, show ¬ ((2 : Nat) = 1) by decide, show ¬ (8 * 2 = 8) by decide, show (8 * 2 = 16) by decide]
      cases bytesToLe16 (getBytes m.data off 2) with
      | ok v =>
        show (init (.int v) (some ((16 : Nat) : Int)), s) = _
        rw [init_int_width, ofInt_nat]
      | error e => rfl
    · simp only [if_false, if_true, show ¬ ((4 : Nat) = 1) by decide, show ¬ ((4 : Nat) = 2) by decide, show ¬ (8 * 4 = 8) by decide,
        show ¬ (8 * 4 = 16) by decide, show (8 * 4 = 32) by decide]
      cases bytesToLe32 (getBytes m.data off 4) with
      | ok v =>
        show (init (.int v) (some ((32 : Nat) : Int)), s) = _
        rw [init_int_width, ofInt_nat]
      | error e => rfl

theorem updMem_none {x : Int} {n : Nat} {new : List Nat} : ∀ {mem : List Region}, findMem mem x = none → updMem x n new mem = mem
  | [], _ => rfl
  | m :: t, h => by
    unfold findMem at h
    simp only [List.find?_cons] at h
    unfold updMem
    cases hm : m.has x
    · rw [hm] at h
      simp only [Bool.false_eq_true, if_false]
      rw [updMem_none (by unfold findMem; exact h)]
    · rw [hm] at h; simp at h

theorem byteOf_mod (v : Nat) {n i : Nat} (h : i < n) : byteOf ((v % 2 ^ (8 * n) : Nat) : Int) i = byteOf v i := by
  unfold byteOf
  congr 1
  have e : (256 : Int) ^ i = ((2 ^ (8 * i) : Nat) : Int) := by rw [Nat.pow_mul]; simp
  rw [e, show (256 : Int) = ((2 ^ 8 : Nat) : Int) from rfl, ← Int.natCast_ediv, ← Int.natCast_emod, ← Int.natCast_ediv,
    ← Int.natCast_emod]
  congr 1
  apply Nat.eq_of_testBit_eq
  intro k
  simp only [Nat.testBit_mod_two_pow, Nat.testBit_div_two_pow]
  by_cases hk : k < 8
  · simp [hk, show k + 8 * i < 8 * n by omega]
  · simp [hk]

theorem poke_mod (mem : List Region) (x : Int) (n : Nat) (v : Nat) : poke mem x n ((v % 2 ^ (8 * n) : Nat) : Int) = poke mem x n v := by
  unfold poke
  congr 1
  apply List.map_congr_left
  intro i hi
  exact byteOf_mod v (List.mem_range.mp hi)

theorem le_bytes (v : Int) (n : Nat) : (List.range n).map (leByte v) = (List.range n).map (byteOf v) := by
  apply List.map_congr_left
  intro i _
  exact leByte_eq_byteOf v i

theorem writeMemory_poke (s : Machine) (x : Num) {n : Nat} (hn : n = 1 ∨ n = 2 ∨ n = 4) (v : BitVec (8 * n)) :
    writeMemory x (.bs (ofBV v)) (8 * n) s = (.ok (), { s with mem := poke s.mem x.toInt n v.toNat }) := by
  unfold writeMemory delegateWriteMemory
  cases h : findMem s.mem x.toInt with
  | none =>
    simp only
    rw [poke, updMem_none h]
  | some p =>
    simp only
    rcases hn with rfl | rfl | rfl
    · have h0 : (Num.bs (ofBV v)).toInt = (v.toNat : Int) := rfl
      have hlt : v.toNat < 256 := v.isLt
      rw [h0]
      simp only [show 8 * 1 = 8 from rfl, if_true]
      rw [if_pos (by omega)]
      unfold poke byteOf
      have : ([((v.toNat : Int)).toNat] : List Nat) = (List.range 1).map fun i => ((v.toNat : Int) / 256 ^ i % 256).toNat := by
        simp only [List.range_one, List.map_cons, List.map_nil, Int.pow_zero, Int.ediv_one]
        congr 1
        omega
      rw [this]
    · simp only [show (8 * 2 = 8) = False by simp, if_false, show (8 * 2 = 16) = True by simp, if_true]
      rw [le16ToBytes, le_bytes]; rfl
    · simp only [show (8 * 4 = 8) = False by simp, if_false, show (8 * 4 = 16) = False by simp, show (8 * 4 = 32) = True by simp,
        if_true]
      rw [le32ToBytes, le_bytes]; rfl

/-- A read raises nothing but `IndexError`. -/
theorem peek_error {mem : List Region} {x : Int} {n : Nat} {e : PyErr} (h : peek mem x n = .error e) : e = .indexError := by
  have hb : ∀ (l : List Nat) (k : Nat) {e : PyErr}, byteAt l k = .error e → e = .indexError := by
    intro l k e h
    unfold byteAt at h
    split at h <;> simp_all
  unfold peek at h
  split at h
  · simp at h
  · next m off _ =>
    split at h
    · simp at h
    · split at h
      · unfold bytesToLe16 at h
        cases h0 : byteAt (getBytes m.data off 2) 0 with
        | error e0 => rw [h0, errBind] at h; cases h; exact hb _ _ h0
        | ok b0 =>
          rw [h0, okBind] at h
          cases h1 : byteAt (getBytes m.data off 2) (0 + 1) with
          | error e1 => rw [h1, errBind] at h; cases h; exact hb _ _ h1
          | ok b1 => rw [h1] at h; cases h
      · unfold bytesToLe32 at h
        cases h0 : byteAt (getBytes m.data off 4) 0 with
        | error e0 => rw [h0, errBind] at h; cases h; exact hb _ _ h0
        | ok b0 =>
          rw [h0, okBind] at h
          cases h1 : byteAt (getBytes m.data off 4) (0 + 1) with
          | error e1 => rw [h1, errBind] at h; cases h; exact hb _ _ h1
          | ok b1 =>
            rw [h1, okBind] at h
            cases h2 : byteAt (getBytes m.data off 4) (0 + 2) with
            | error e1 => rw [h2, errBind] at h; cases h; exact hb _ _ h2
            | ok b2 =>
              rw [h2, okBind] at h
              cases h3 : byteAt (getBytes m.data off 4) (0 + 3) with
              | error e1 => rw [h3, errBind] at h; cases h; exact hb _ _ h3
              | ok b3 => rw [h3] at h; cases h

theorem peek_inside {mem : List Region} (hm : MemOK mem) {x : Int} {n : Nat} (hn : n = 1 ∨ n = 2 ∨ n = 4) (hin : Inside mem x n) :
    ∃ v, flatRead (flat mem) x n = some v ∧ v < 2 ^ (8 * n) ∧ ∃ u, peek mem x n = .ok u ∧ u % 2 ^ (8 * n) = v := by
  obtain ⟨v, h1, h2, h3⟩ := readMemory_inside (s := ⟨fun _ => none, mem⟩) hm (addr := .int x) hn hin
  refine ⟨v, h1, h2, ?_⟩
  rw [readMemory_peek _ _ hn] at h3
  unfold peekWord at h3
  cases hp : peek mem x n with
  | error e =>
    have h4 := congrArg Prod.fst h3
    simp only [Num.toInt, hp] at h4
    cases h4
  | ok u =>
    have h4 := congrArg Prod.fst h3
    simp only [Num.toInt, hp, Except.ok.injEq] at h4
    refine ⟨u, rfl, ?_⟩
    have h5 := congrArg BS.value h4
    rw [bv_value, bv_value] at h5
    rw [h5, Nat.mod_eq_of_lt h2]

theorem flat_poke {mem : List Region} (hm : MemOK mem) {x : Int} {n : Nat} (h0 : 0 < n) (hin : Inside mem x n) (v : Int) :
    flat (poke mem x n v) = flatWrite (flat mem) x n v := flat_eq_flatWrite hm h0 hin

theorem poke_ok {mem : List Region} (hm : MemOK mem) {x : Int} {n : Nat} (h0 : 0 < n) (hin : Inside mem x n) (v : Int) :
    MemOK (poke mem x n v) :=
  updMem_ok hm (by simp) h0 hin (fun b hb => by
    obtain ⟨i, -, rfl⟩ := List.mem_map.mp hb
    exact byteOf_lt v i)

theorem inside_poke {mem : List Region} {x y : Int} {n k : Nat} {v : Int} : Inside (poke mem x n v) y k ↔ Inside mem y k :=
  inside_updMem

/-! ### Loads and stores of one register -/

/-- The offset as the program computes it: the program counter is not increased by 4. -/
def Thumb.Off.got (a : Arm) : Off → Word
  | .imm v => v
  | .reg m sh => (C18.armShift (a.reg m) (a.flag 29) sh.1 sh.2).1

theorem memOffset_conc {i : Instr} {off : Off} (h : off.Of i) (hs : ∀ m sh, off = .reg m sh → sh.1 = .rrx → sh.2 = 1) (a : Arm) :
    memOffset i a.conc = (.ok (ofBV (off.got a)), a.conc) := by
  unfold memOffset
  cases off with
  | imm v => rw [h]; rfl
  | reg m sh =>
    obtain ⟨h1, h2, h3, h4, h5⟩ := h
    rw [h1]
    simp only
    rw [bind_ok (readReg_conc ⟨h2, h3⟩ a), py_attr h4, py_attr h5, bind_ok (flagC_conc a)]
    have : shift (ofBV (a.reg m)) sh.1 sh.2 (ofBit (a.flag 29)) = .ok (ofBV (C18.armShift (a.reg m) (a.flag 29) sh.1 sh.2).1) := by
      unfold shift
      rw [C18.shift_c_spec _ _ _ _ (by decide) (hs m sh rfl)]
      rfl
    rw [this]
    rfl

theorem offsetAddr_conc {i : Instr} {n : Nat} (hn : IsReg i.n n) (ha : i.add = some true) (off : Word) (a : Arm) :
    offsetAddr i (ofBV off) a.conc = (.ok (ofBV (a.reg n + off)), a.conc) := by
  unfold offsetAddr
  rw [py_attr ha, bind_ok (readReg_conc hn a)]
  simp only [if_true]
  rw [add_ofBV]
  rfl

theorem accessAddr_conc {i : Instr} (h : i.index = some true) (oa : BS) (a : Arm) : accessAddr i oa a.conc = (.ok oa, a.conc) := by
  unfold accessAddr
  rw [py_attr h]
  rfl

/-- A finished or failed instruction: the failure leaves this state. -/
def outcome (i : Instr) : PyRes Unit × Arm → PyRes Instr × Machine
  | (.ok (), a) => (.ok i, a.conc)
  | (.error e, a) => (.error e, a.conc)

/-- Loading a register. -/
def Arm.loadTo (a : Arm) (size : Nat) (sz : Nat) (sgn : Bool) (t : Nat) (x : Word) : PyRes Unit × Arm :=
  match peek a.mem x.toNat (sz / 8) with
  | .ok v => (.ok (), a.afterWrite size t (extended sgn sz v))
  | .error e => (.error e, a)

theorem extendData_bv (sgn : Bool) {sz : Nat} (hs : sz = 8 ∨ sz = 16 ∨ sz = 32) (v : Nat) :
    extendData sgn (bv sz v) = .ok (ofBV (extended sgn sz v)) := by
  rw [bv_eq_ofBV]
  unfold extendData extended
  cases sgn
  · exact zeroExtend_ofBV _ 32 (by omega)
  · exact signExtend_ofBV _ 32 (by omega) (by omega)

theorem readMemory_size (a : Arm) (x : Word) {sz : Nat} (hs : sz = 8 ∨ sz = 16 ∨ sz = 32) :
    readMemory (.bs (ofBV x)) sz a.conc = (peekWord a.mem x.toNat (sz / 8), a.conc) := by
  have h := readMemory_peek a.conc (.bs (ofBV x)) (n := sz / 8) (by omega)
  rw [show 8 * (sz / 8) = sz by omega] at h
  exact h

theorem load_exact {i : Instr} {sz : Nat} {sgn : Bool} {t n : Nat} {off : Off} (h : (Act.load sz sgn t n off).Of i)
    (hsz : sz = 8 ∨ sz = 16 ∨ sz = 32) (hs : ∀ m sh, off = .reg m sh → sh.1 = .rrx → sh.2 = 1) (a : Arm) :
    i.eval a.conc = outcome i (a.loadTo i.size sz sgn t (a.reg n + off.got a)) := by
  obtain ⟨hk, hms, hsg, ht, hn, hidx, hadd, hwb, hoff⟩ := h
  unfold Instr.eval
  rw [hk]
  show Exec.load i a.conc = _
  unfold Exec.load
  rw [bind_ok (memOffset_conc hoff hs a), bind_ok (offsetAddr_conc hn hadd _ a), bind_ok (accessAddr_conc hidx _ a), py_attr hms]
  have hr := readMemory_size a (a.reg n + off.got a) hsz
  unfold Arm.loadTo
  unfold peekWord at hr
  cases hp : peek a.mem (a.reg n + off.got a).toNat (sz / 8) with
  | error e =>
    rw [hp] at hr
    rw [bind_err hr]
    rfl
  | ok v =>
    rw [hp] at hr
    rw [bind_ok hr, py_attr hwb, bind_ok (show writeIf false i.n _ a.conc = (.ok (), a.conc) from rfl), py_attr hsg,
      show 8 * (sz / 8) = sz by omega, py_bind_ok (extendData_bv sgn hsz v), bind_ok (writeReg_conc ht a _), bind_ok (advance_conc _ _)]
    rfl

theorem loadLit_exact {i : Instr} {sz : Nat} {sgn add : Bool} {t : Nat} {imm : Word} (h : (Act.loadLit sz sgn add t imm).Of i)
    (hsz : sz = 8 ∨ sz = 16 ∨ sz = 32) (a : Arm) :
    i.eval a.conc = outcome i (a.loadTo i.size sz sgn t
      (if add then align4 (a.reg 15 + 4#32) + imm else align4 (a.reg 15 + 4#32) - imm)) := by
  obtain ⟨hk, hms, hsg, hadd, ht, himm⟩ := h
  unfold Instr.eval
  rw [hk]
  show Exec.loadLiteral i a.conc = _
  unfold Exec.loadLiteral
  rw [bind_ok (pcForInstr_conc a), py_bind_ok (align_word _), py_attr hadd, py_attr himm, py_bind_ok (plusMinus _ _ _), py_attr hms]
  generalize (if add then align4 (a.reg 15 + 4#32) + imm else align4 (a.reg 15 + 4#32) - imm) = x
  have hr := readMemory_size a x hsz
  unfold Arm.loadTo
  unfold peekWord at hr
  cases hp : peek a.mem x.toNat (sz / 8) with
  | error e =>
    rw [hp] at hr
    rw [bind_err hr]
    rfl
  | ok v =>
    rw [hp] at hr
    rw [bind_ok hr, py_attr hsg,
      show 8 * (sz / 8) = sz by omega, py_bind_ok (extendData_bv sgn hsz v), bind_ok (writeReg_conc ht a _), bind_ok (advance_conc _ _)]
    rfl

/-- Writing memory. -/
def Arm.poke (a : Arm) (x : Word) (n : Nat) (v : Word) : Arm := { a with mem := Verif.poke a.mem x.toNat n v.toNat }

theorem writeMemory_size (a : Arm) (x v : Word) {sz : Nat} (hs : sz = 8 ∨ sz = 16 ∨ sz = 32) :
    writeMemory (.bs (ofBV x)) (.bs (ofBV (v.extractLsb' 0 sz))) sz a.conc = (.ok (), (a.poke x (sz / 8) v).conc) := by
  have h := writeMemory_poke a.conc (.bs (ofBV x)) (n := sz / 8) (by omega) (v.extractLsb' 0 (8 * (sz / 8)))
  rw [BitVec.extractLsb'_toNat, Nat.shiftRight_zero, poke_mod] at h
  rw [show 8 * (sz / 8) = sz by omega] at h
  exact h

theorem store_exact {i : Instr} {sz t n : Nat} {off : Off} (h : (Act.store sz t n off).Of i)
    (hsz : sz = 8 ∨ sz = 16 ∨ sz = 32) (hs : ∀ m sh, off = .reg m sh → sh.1 = .rrx → sh.2 = 1) (a : Arm) :
    i.eval a.conc = (.ok i, ((a.poke (a.reg n + off.got a) (sz / 8) (a.reg t)).next i.size).conc) := by
  obtain ⟨hk, hms, ht, hn, hidx, hadd, hoff⟩ := h
  unfold Instr.eval
  rw [hk]
  show Exec.store i a.conc = _
  unfold Exec.store
  rw [bind_ok (memOffset_conc hoff hs a), bind_ok (offsetAddr_conc hn hadd _ a), bind_ok (accessAddr_conc hidx _ a),
    bind_ok (readReg_conc ht a), py_attr hms, py_bind_ok (slice_low _ sz (by omega)), bind_ok (writeMemory_size a _ _ hsz),
    bind_ok (advance_conc _ _)]
  rfl

/-! ### Several registers -/

/-- Storing registers at consecutive words. -/
def Arm.storeAll (a : Arm) : List Nat → Word → Arm
  | [], _ => a
  | k :: ks, x => (a.poke x 4 (a.reg k)).storeAll ks (x + 4#32)

/-- Loading registers from consecutive words: the address after them, or the exception. -/
def Arm.loadAll (a : Arm) : List Nat → Word → PyRes Word × Arm
  | [], x => (.ok x, a)
  | k :: ks, x => match peek a.mem x.toNat 4 with
    | .ok v => (a.set k (w32 v)).loadAll ks (x + 4#32)
    | .error e => (.error e, a)

theorem nonzero_ofBit (b : Bool) : (ofBit b).nonzero = b := by cases b <;> rfl

theorem plus4 (x : Word) : (ofBV x).iadd (.int 4) = .ok (ofBV (x + 4#32)) := by
  rw [iadd_eq_add (ofBV_wf x), add_int_ofBV]; rfl

theorem plusN (x : Word) (n : Nat) : (ofBV x).iadd (.int (4 * (n : Int))) = .ok (ofBV (x + w32 (4 * n))) := by
  rw [iadd_eq_add (ofBV_wf x), add_int_ofBV, show (4 * (n : Int)) = ((4 * n : Nat) : Int) by omega, BitVec.ofInt_natCast]; rfl

theorem minusN (x : Word) (n : Nat) : (ofBV x).sub (.int (4 * (n : Int))) = .ok (ofBV (x - w32 (4 * n))) := by
  rw [sub_int_ofBV, show (4 * (n : Int)) = ((4 * n : Nat) : Int) by omega, BitVec.ofInt_natCast]; rfl

theorem write_word (a : Arm) (x v : Word) : writeMemory (.bs (ofBV x)) (.bs (ofBV v)) 32 a.conc = (.ok (), (a.poke x 4 v).conc) :=
  writeMemory_poke a.conc (.bs (ofBV x)) (n := 4) (by decide) v

theorem storeLoop_conc (r : BitVec 16) : ∀ (ks : List Nat) (x : Word) (a : Arm), (∀ k ∈ ks, k < 16) →
    storeLoop (ofBV r) ks (ofBV x) a.conc = (.ok (ofBV (x + w32 (4 * (ks.filter fun k => r.getLsbD k).length))),
      (a.storeAll (ks.filter fun k => r.getLsbD k) x).conc)
  | [], x, a, _ => by simp [storeLoop, Arm.storeAll, w32]
  | k :: ks, x, a, h => by
    unfold storeLoop
    rw [py_bind_ok (getItem_ofBV r k), nonzero_ofBit]
    cases hk : r.getLsbD k
    · simp only [Bool.false_eq_true, if_false]
      rw [storeLoop_conc r ks x a (fun j hj => h j (List.mem_cons_of_mem _ hj)), List.filter_cons_of_neg (by simp [hk])]
    · simp only [if_true]
      rw [bind_ok (getR_conc a k (h k List.mem_cons_self)), bind_ok (write_word a x _), py_bind_ok (plus4 x),
        storeLoop_conc r ks _ _ (fun j hj => h j (List.mem_cons_of_mem _ hj)), List.filter_cons_of_pos (by simpa using hk)]
      have e : ∀ n, x + 4#32 + w32 (4 * n) = x + w32 (4 * (n + 1)) := by
        intro n
        rw [BitVec.add_assoc]
        unfold w32
        rw [← BitVec.ofNat_add, show 4 + 4 * n = 4 * (n + 1) by omega]
      rw [List.length_cons, e]
      rfl

/-- The result of a loop as bitstrings. -/
def looped : PyRes Word × Arm → PyRes BS × Machine
  | (.ok x, a) => (.ok (ofBV x), a.conc)
  | (.error e, a) => (.error e, a.conc)

theorem read_word (a : Arm) (x : Word) : readMemory (.bs (ofBV x)) 32 a.conc = (peekWord a.mem x.toNat 4, a.conc) :=
  readMemory_size a x (by decide)

theorem loadLoop_conc (r : BitVec 16) : ∀ (ks : List Nat) (x : Word) (a : Arm), (∀ k ∈ ks, k < 16) →
    loadLoop (ofBV r) ks (ofBV x) a.conc = looped (a.loadAll (ks.filter fun k => r.getLsbD k) x)
  | [], x, a, _ => rfl
  | k :: ks, x, a, h => by
    unfold loadLoop
    rw [py_bind_ok (getItem_ofBV r k), nonzero_ofBit]
    cases hk : r.getLsbD k
    · simp only [Bool.false_eq_true, if_false]
      rw [loadLoop_conc r ks x a (fun j hj => h j (List.mem_cons_of_mem _ hj)), List.filter_cons_of_neg (by simp [hk])]
    · simp only [if_true]
      rw [List.filter_cons_of_pos (by simpa using hk)]
      have hr := read_word a x
      unfold peekWord at hr
      unfold Arm.loadAll
      cases hp : peek a.mem x.toNat 4 with
      | error e => rw [hp] at hr; rw [bind_err hr]; rfl
      | ok v =>
        rw [hp] at hr
        rw [bind_ok hr, bv_eq_ofBV, bind_ok (setR_conc a k (h k List.mem_cons_self) _), py_bind_ok (plus4 x),
          loadLoop_conc r ks _ _ (fun j hj => h j (List.mem_cons_of_mem _ hj))]
        rfl

theorem bitCount_ofBV (r : BitVec 16) : (ofBV r).bitCount = count r := by
  rw [C12.bit_count_is_number_of_set_bits _ (ofBV_wf r)]
  unfold C12.setBits count
  rw [ofBV_width, ofBV_value]
  simp only [BitVec.testBit_toNat]

/-- The registers 0 to 14 of a list. -/
def low15 (r : BitVec 16) : List Nat := (List.range 15).filter fun k => r.getLsbD k

theorem range15 : ∀ k ∈ List.range 15, k < 16 := fun k hk => by have := List.mem_range.mp hk; omega

theorem push_exact {i : Instr} {r : BitVec 16} (h : (Act.push r).Of i) (a : Arm) :
    i.eval a.conc = (.ok i, (((a.set 13 (a.reg 13 - w32 (4 * count r))).storeAll (low15 r) (a.reg 13 - w32 (4 * count r))).next
      i.size).conc) := by
  obtain ⟨hk, hr⟩ := h
  unfold Instr.eval
  rw [hk]
  show Exec.push i a.conc = _
  unfold Exec.push
  rw [bind_ok (getSp_conc a), py_attr hr, bitCount_ofBV, py_bind_ok (minusN _ _), bind_ok (setSp_conc _ _),
    bind_ok (storeLoop_conc r _ _ _ range15), bind_ok (advance_conc _ _)]
  rfl

/-- Loading PC at the end of POP and LDM, or going on. -/
def Arm.loadPc (a : Arm) (size : Nat) (r : BitVec 16) (x : Word) : PyRes Unit × Arm :=
  if r.getLsbD 15 then
    match peek a.mem x.toNat 4 with
    | .ok v => (.ok (), a.set 15 (w32 v))
    | .error e => (.error e, a)
  else (.ok (), a.next size)

/-- The registers of a list, then PC. -/
def Arm.loadRegs (a : Arm) (size : Nat) (r : BitVec 16) (x : Word) : PyRes Unit × Arm :=
  match a.loadAll (low15 r) x with
  | (.ok y, b) => b.loadPc size r y
  | (.error e, b) => (.error e, b)

/-- The result of a step as a machine. -/
def stepped : PyRes Unit × Arm → PyRes Unit × Machine := fun p => (p.1, p.2.conc)

theorem loadPc_conc (i : Instr) (r : BitVec 16) (x : Word) (a : Arm) :
    Exec.loadPc i (ofBV r) (ofBV x) a.conc = stepped (a.loadPc i.size r x) := by
  unfold Exec.loadPc Arm.loadPc
  have hg : (ofBV r).getItem 15 = .ok (ofBit (r.getLsbD 15)) := getItem_ofBV r 15
  rw [py_bind_ok hg, nonzero_ofBit]
  cases r.getLsbD 15
  · simp only [Bool.false_eq_true, if_false]
    rw [advance_conc]; rfl
  · simp only [if_true]
    have hr := read_word a x
    unfold peekWord at hr
    cases hp : peek a.mem x.toNat 4 with
    | error e => rw [hp] at hr; rw [bind_err hr]; rfl
    | ok v =>
      rw [hp] at hr
      rw [bind_ok hr, bv_eq_ofBV, setPc_conc]; rfl

theorem loadRegs_conc (i : Instr) (r : BitVec 16) (x : Word) (a : Arm) :
    (loadLoop (ofBV r) (List.range 15) (ofBV x) >>= fun y => Exec.loadPc i (ofBV r) y) a.conc =
      stepped (a.loadRegs i.size r x) := by
  unfold Arm.loadRegs
  have h := loadLoop_conc r (List.range 15) x a range15
  unfold low15
  cases hl : a.loadAll ((List.range 15).filter fun k => r.getLsbD k) x with
  | mk res b =>
    rw [hl] at h
    cases res with
    | ok y => rw [bind_ok (show _ = (Except.ok (ofBV y), b.conc) from h), loadPc_conc]
    | error e => rw [bind_err (show _ = (Except.error e, b.conc) from h)]; rfl

theorem finish {i : Instr} {x : CpuM Unit} {s : Machine} {p : PyRes Unit × Arm} (h : x s = stepped p) :
    (x >>= fun _ => pure i) s = outcome i p := by
  obtain ⟨res, b⟩ := p
  cases res with
  | ok u => rw [bind_ok (show x s = (Except.ok (), b.conc) from h)]; rfl
  | error e => rw [bind_err (show x s = (Except.error e, b.conc) from h)]; rfl

theorem pop_exact {i : Instr} {r : BitVec 16} (h : (Act.pop r).Of i) (a : Arm) :
    i.eval a.conc = outcome i ((a.set 13 (a.reg 13 + w32 (4 * count r))).loadRegs i.size r (a.reg 13)) := by
  obtain ⟨hk, hr⟩ := h
  unfold Instr.eval
  rw [hk]
  show Exec.pop i a.conc = _
  unfold Exec.pop
  rw [bind_ok (getSp_conc a), bind_ok (getSp_conc a), py_attr hr, bitCount_ofBV, py_bind_ok (plusN _ _), bind_ok (setSp_conc _ _)]
  have h := loadRegs_conc i r (a.reg 13) (a.set 13 (a.reg 13 + w32 (4 * count r)))
  have e : ∀ s : Machine, (do
      let a' ← loadLoop (ofBV r) (List.range 15) (ofBV (a.reg 13))
      Exec.loadPc i (ofBV r) a'
      pure i) s = ((loadLoop (ofBV r) (List.range 15) (ofBV (a.reg 13)) >>= fun y => Exec.loadPc i (ofBV r) y) >>= fun _ => pure i) s := by
    intro s
    simp only [bind_def]
    split <;> rfl
  rw [e]
  exact finish h

/-- The write back of LDM. -/
def Arm.writeBack (a : Arm) (n : Nat) (wback : Bool) (r : BitVec 16) : Arm :=
  if wback && !r.getLsbD n then a.set n (a.reg n + w32 (4 * count r)) else a

theorem ldmWriteBack_conc {i : Instr} {n : Nat} (hn : IsReg i.n n) (r : BitVec 16) (wb : Bool) (a : Arm) :
    ldmWriteBack i (ofBV r) wb a.conc = (.ok (), (a.writeBack n wb r).conc) := by
  unfold ldmWriteBack Arm.writeBack
  cases wb
  · rfl
  · simp only [if_true, Bool.true_and]
    have ho : (ofBit (r.getLsbD n)).isStr (c! "0") = .ok (!r.getLsbD n) := by cases r.getLsbD n <;> decide
    rw [py_attr hn.1, py_bind_ok (getItem_ofBV r n), py_bind_ok ho]
    cases r.getLsbD n
    · simp only [Bool.not_false, if_true]
      rw [bind_ok (getR_conc a n hn.2), bitCount_ofBV, py_bind_ok (plusN _ _), setR_conc a n hn.2]
    · rfl

/-- LDM: the registers, then the write back. -/
def Arm.ldm (a : Arm) (size n : Nat) (wback : Bool) (r : BitVec 16) : PyRes Unit × Arm :=
  match a.loadRegs size r (a.reg n) with
  | (.ok (), b) => (.ok (), b.writeBack n wback r)
  | (.error e, b) => (.error e, b)

theorem ldm_exact {i : Instr} {n : Nat} {wback : Bool} {r : BitVec 16} (h : (Act.ldm n wback r).Of i) (a : Arm) :
    i.eval a.conc = outcome i (a.ldm i.size n wback r) := by
  obtain ⟨hk, hn, hw, hr⟩ := h
  unfold Instr.eval
  rw [hk]
  show Exec.loadMultiple i a.conc = _
  unfold Exec.loadMultiple
  rw [bind_ok (readReg_conc hn a), py_attr hr]
  have h := loadRegs_conc i r (a.reg n) a
  have e : ∀ s : Machine, (do
      let a' ← loadLoop (ofBV r) (List.range 15) (ofBV (a.reg n))
      Exec.loadPc i (ofBV r) a'
      let wb ← py (attr i.wback)
      ldmWriteBack i (ofBV r) wb
      pure i) s = ((loadLoop (ofBV r) (List.range 15) (ofBV (a.reg n)) >>= fun y => Exec.loadPc i (ofBV r) y) >>= fun _ => do
        let wb ← py (attr i.wback)
        ldmWriteBack i (ofBV r) wb
        pure i) s := by
    intro s
    simp only [bind_def]
    split <;> rfl
  rw [e]
  unfold Arm.ldm
  cases hl : a.loadRegs i.size r (a.reg n) with
  | mk res b =>
    rw [hl] at h
    cases res with
    | error e => rw [bind_err (show _ = (Except.error e, b.conc) from h)]; rfl
    | ok u =>
      rw [bind_ok (show _ = (Except.ok (), b.conc) from h), py_attr hw, bind_ok (ldmWriteBack_conc hn r wback b)]; rfl

/-- STM. -/
def Arm.stm (a : Arm) (n : Nat) (wback : Bool) (r : BitVec 16) : Arm :=
  if wback then (a.storeAll (low15 r) (a.reg n)).set n (a.reg n + w32 (4 * (low15 r).length))
  else a.storeAll (low15 r) (a.reg n)

theorem stm_exact {i : Instr} {n : Nat} {wback : Bool} {r : BitVec 16} (h : (Act.stm n wback r).Of i) (a : Arm) :
    i.eval a.conc = (.ok i, ((a.stm n wback r).next i.size).conc) := by
  obtain ⟨hk, hn, hw, hr⟩ := h
  unfold Instr.eval
  rw [hk]
  show Exec.storeMultiple i a.conc = _
  unfold Exec.storeMultiple
  rw [bind_ok (readReg_conc hn a), py_attr hr, bind_ok (storeLoop_conc r _ _ _ range15), py_attr hw]
  have hw : writeIf wback i.n (ofBV (a.reg n + w32 (4 * (low15 r).length))) (a.storeAll (low15 r) (a.reg n)).conc =
      (.ok (), (a.stm n wback r).conc) := by
    unfold writeIf Arm.stm
    cases wback
    · rfl
    · exact writeReg_conc hn _ _
  unfold low15 at hw
  rw [bind_ok hw, bind_ok (advance_conc _ _)]
  rfl

/-! ### System instructions -/

/-- CPS: privilege is not looked at. -/
def Arm.cps (a : Arm) (enable pri fault : Bool) : Arm :=
  let v := if enable then 0#32 else 1#32
  let a1 := if pri then a.set (-1) v else a
  if fault then a1.set (-3) v else a1

theorem writeCoreIf_conc (b : Bool) (name : Str) {k : Int} (hk : coreRegister.lookup name = some k) (hm : k ∈ coreIndices)
    (v : Word) (a : Arm) : writeCoreIf b name v.toNat a.conc = (.ok (), (if b then a.set k v else a).conc) := by
  unfold writeCoreIf writeCore
  rw [hk]
  cases b
  · rfl
  · exact writeRegister_int a rfl hm v

theorem cps_exact {i : Instr} {enable pri fault : Bool} (h : (Act.cps enable pri fault).Of i) (a : Arm) :
    i.eval a.conc = (.ok i, ((a.cps enable pri fault).next i.size).conc) := by
  obtain ⟨hk, he, hp, hf⟩ := h
  unfold Instr.eval
  rw [hk]
  show Exec.changeProcessorState i a.conc = _
  unfold Exec.changeProcessorState
  have hv : (if enable then (0 : Int) else 1) = (((if enable then 0#32 else 1#32) : Word).toNat : Int) := by cases enable <;> rfl
  rw [py_attr he, py_attr hp]
  simp only [hv]
  rw [bind_ok (writeCoreIf_conc pri (c! "primask") (k := -1) (by decide) (mem_core.2 (by omega)) _ a), py_attr hf,
    bind_ok (writeCoreIf_conc fault (c! "faultmask") (k := -3) (by decide) (mem_core.2 (by omega)) _ _), bind_ok (advance_conc _ _)]
  rfl

/-- CONTROL.nPRIV is clear. -/
def Arm.privileged (a : Arm) : Bool := !(a.reg (-4)).getLsbD 0

theorem isPrivileged_conc (a : Arm) : isPrivileged a.conc = (.ok a.privileged, a.conc) := by
  unfold isPrivileged
  have hg : (ofBV (a.reg (-4))).getItem 0 = .ok (ofBit ((a.reg (-4)).getLsbD 0)) := getItem_ofBV _ 0
  rw [bind_ok (getControl_conc a), py_bind_ok hg]
  unfold Arm.privileged
  cases (a.reg (-4)).getLsbD 0 <;> rfl

/-- What MRS reads: the xPSR group either raises or gives at most the low six bits of
IPSR. -/
def Arm.special (a : Arm) (s : Nat) : PyRes Word :=
  if s / 8 = 0 then
    if s / 4 % 2 = 0 then .error .typeError
    else .ok (if s % 2 = 1 then a.reg 16 &&& 0x3f#32 else 0#32)
  else if s / 8 = 1 then
    .ok (if a.privileged then (if s % 8 = 0 then a.reg 17 else if s % 8 = 1 then a.reg 18 else 0#32) else 0#32)
  else if s / 8 = 2 then
    .ok (if s % 8 = 0 then (if a.privileged then a.reg (-1) &&& 1#32 else 0#32)
      else if s % 8 = 1 ∨ s % 8 = 2 then (if a.privileged then a.reg (-2) &&& 0xff#32 else 0#32)
      else if s % 8 = 3 then (if a.privileged then a.reg (-3) &&& 1#32 else 0#32)
      else if s % 8 = 4 then a.reg (-4) &&& 3#32
      else 0#32)
  else .ok 0#32

theorem high_is (s : BitVec 8) :
    fieldIs (ofBV s) 3 8 (c! "00000") = .ok (decide (s.toNat / 8 = 0)) ∧
    fieldIs (ofBV s) 3 8 (c! "00001") = .ok (decide (s.toNat / 8 = 1)) ∧
    fieldIs (ofBV s) 3 8 (c! "00010") = .ok (decide (s.toNat / 8 = 2)) := by
  revert s; decide +kernel

theorem low_is (s : BitVec 8) :
    fieldIs (ofBV s) 0 3 (c! "000") = .ok (decide (s.toNat % 8 = 0)) ∧
    fieldIs (ofBV s) 0 3 (c! "001") = .ok (decide (s.toNat % 8 = 1)) ∧
    fieldIs (ofBV s) 0 3 (c! "010") = .ok (decide (s.toNat % 8 = 2)) ∧
    fieldIs (ofBV s) 0 3 (c! "011") = .ok (decide (s.toNat % 8 = 3)) ∧
    fieldIs (ofBV s) 0 3 (c! "100") = .ok (decide (s.toNat % 8 = 4)) := by
  revert s; decide +kernel

theorem bit_is (s : BitVec 8) :
    bitIs (ofBV s) 0 (c! "1") = .ok (decide (s.toNat % 2 = 1)) ∧
    bitIs (ofBV s) 1 (c! "1") = .ok (decide (s.toNat / 2 % 2 = 1)) ∧
    bitIs (ofBV s) 2 (c! "0") = .ok (decide (s.toNat / 4 % 2 = 0)) := by
  revert s; decide +kernel

theorem ones_bit (n k : Nat) : (BitVec.ofNat 32 (2 ^ n - 1)).getLsbD k = (decide (k < 32) && decide (k < n)) := by
  rw [BitVec.getLsbD_ofNat, Nat.testBit_two_pow_sub_one]

theorem put_low (x : Word) (n : Nat) (h : n ≤ 32) :
    put (ofBV 0#32) 0 n (.bs (ofBV (x.extractLsb' 0 n))) = .ok (ofBV (x &&& BitVec.ofNat 32 (2 ^ n - 1))) := by
  obtain ⟨r, p, q⟩ := put_bits 0#32 0 n (x.extractLsb' 0 n) (by omega) h
  have e : r = x &&& BitVec.ofNat 32 (2 ^ n - 1) := by
    apply BitVec.eq_of_getLsbD_eq
    intro k hk
    rw [q, BitVec.getLsbD_and, ones_bit, BitVec.getLsbD_extractLsb']
    by_cases hkn : k < n <;> simp [hk, hkn]
  rw [← e]
  exact p

theorem put_wide (x : BitVec 6) : put (ofBV 0#32) 0 9 (.bs (ofBV x)) = .ok (ofBV (x.setWidth 32)) := by
  revert x; decide +kernel

theorem slice_wide (x : BitVec 6) : (ofBV x).slice 0 9 = .ok (ofBV x) := by
  revert x; decide +kernel

theorem low6 (x : Word) : (x.extractLsb' 0 6).setWidth 32 = x &&& 0x3f#32 := by
  apply BitVec.eq_of_getLsbD_eq
  intro k hk
  rw [BitVec.getLsbD_setWidth, BitVec.getLsbD_extractLsb', BitVec.getLsbD_and, show (0x3f#32) = BitVec.ofNat 32 (2 ^ 6 - 1) from rfl,
    BitVec.getLsbD_ofNat, Nat.testBit_two_pow_sub_one]
  by_cases h6 : k < 6 <;> simp [hk, h6]

theorem mrsIpsr_conc (a : Arm) (b : Bool) :
    mrsIpsr (ofBV 0#32) b a.conc = (.ok (ofBV (if b then a.reg 16 &&& 0x3f#32 else 0#32)), a.conc) := by
  unfold mrsIpsr
  cases b
  · rfl
  · simp only [if_true]
    have hi : getIpsr a.conc = (.ok (ofBV ((a.reg 16).extractLsb' 0 6)), a.conc) := by
      unfold getIpsr
      rw [bind_ok (getXpsr_conc a)]
      exact py_ok (slice_low (a.reg 16) 6 (by decide)) _
    rw [bind_ok hi, py_bind_ok (slice_wide _), put_wide, low6]
    rfl

theorem mrsEpsr_conc (x : Word) (b : Bool) (h : x &&& 0x3f#32 = x) : mrsEpsr (ofBV x) b = .ok (ofBV x) := by
  unfold mrsEpsr
  cases b
  · rfl
  · simp only [if_true]
    have h7 : ∀ k, 6 ≤ k → x.getLsbD k = false := by
      intro k hk
      rw [← h, BitVec.getLsbD_and, show (0x3f#32) = BitVec.ofNat 32 (2 ^ 6 - 1) from rfl, ones_bit,
        decide_eq_false (show ¬ k < 6 by omega)]
      simp
    obtain ⟨r1, p1, q1⟩ := put_bits x 24 27 0#3 (by decide) (by decide)
    have e1 : r1 = x := by
      apply BitVec.eq_of_getLsbD_eq
      intro k _
      rw [q1]
      split
      · rw [h7 k (by omega)]; simp
      · rfl
    obtain ⟨r2, p2, q2⟩ := put_bits x 10 16 0#6 (by decide) (by decide)
    have e2 : r2 = x := by
      apply BitVec.eq_of_getLsbD_eq
      intro k _
      rw [q2]
      split
      · rw [h7 k (by omega)]; simp
      · rfl
    have p1' : put (ofBV x) 24 27 (.str (c! "000")) = .ok (ofBV x) := by rw [← e1] at p1 ⊢; exact p1
    have p2' : put (ofBV x) 10 16 (.str (c! "000000")) = .ok (ofBV x) := by rw [← e2] at p2 ⊢; exact p2
    rw [p1', okBind, p2']

theorem mrsPsr_conc (a : Arm) (s : BitVec 8) :
    mrsPsr (ofBV s) (ofBV 0#32) a.conc = (if s.toNat / 4 % 2 = 0 then .error .typeError
      else .ok (ofBV (if s.toNat % 2 = 1 then a.reg 16 &&& 0x3f#32 else 0#32)), a.conc) := by
  unfold mrsPsr
  obtain ⟨h0, h1, h2⟩ := bit_is s
  have hx : (if s.toNat % 2 = 1 then a.reg 16 &&& 0x3f#32 else 0#32) &&& 0x3f#32 = if s.toNat % 2 = 1 then a.reg 16 &&& 0x3f#32 else 0#32 := by
    split
    · rw [BitVec.and_assoc, BitVec.and_self]
    · rfl
  rw [py_bind_ok h0, bind_ok (mrsIpsr_conc a _), py_bind_ok h1]
  simp only [decide_eq_true_eq]
  rw [py_bind_ok (mrsEpsr_conc _ _ hx), py_bind_ok h2]
  by_cases h4 : s.toNat / 4 % 2 = 0
  · simp only [h4, decide_true, if_true]; rfl
  · simp only [h4, decide_false, Bool.false_eq_true, if_false]; rfl

theorem mrsSp_conc (a : Arm) (s : BitVec 8) :
    mrsSp (ofBV s) (ofBV 0#32) a.conc = (.ok (ofBV (if a.privileged then
      (if s.toNat % 8 = 0 then a.reg 17 else if s.toNat % 8 = 1 then a.reg 18 else 0#32) else 0#32)), a.conc) := by
  unfold mrsSp
  obtain ⟨h0, h1, -⟩ := low_is s
  rw [bind_ok (isPrivileged_conc a)]
  cases a.privileged
  · rfl
  · simp only [if_true]
    rw [py_bind_ok h0]
    by_cases c0 : s.toNat % 8 = 0
    · simp only [c0, decide_true, if_true]; exact getMsp_conc a
    · simp only [c0, decide_false, Bool.false_eq_true, if_false]
      rw [py_bind_ok h1]
      by_cases c1 : s.toNat % 8 = 1
      · simp only [c1, decide_true, if_true]; exact getPsp_conc a
      · simp only [c1, decide_false, Bool.false_eq_true, if_false]; rfl

theorem readCore_conc (a : Arm) {name : Str} {k : Int} (hk : coreRegister.lookup name = some k) (hm : k ∈ coreIndices) :
    readCore name a.conc = (.ok (ofBV (a.reg k)), a.conc) := by
  unfold readCore
  rw [hk]
  exact readRegister_conc a rfl hm

theorem withBit_zero (x : Word) : withBit 0#32 0 (x.getLsbD 0) = x &&& 1#32 := by
  apply BitVec.eq_of_getLsbD_eq
  intro k hk
  rw [getLsbD_withBit _ 0 (by decide), BitVec.getLsbD_and, show (1#32) = BitVec.ofNat 32 (2 ^ 1 - 1) from rfl, ones_bit]
  by_cases h0 : k = 0
  · subst h0; simp
  · simp [h0]

theorem mrsBit_conc (a : Arm) {name : Str} {k : Int} (hk : coreRegister.lookup name = some k) (hm : k ∈ coreIndices) :
    mrsBit name (ofBV 0#32) a.conc = (.ok (ofBV (if a.privileged then a.reg k &&& 1#32 else 0#32)), a.conc) := by
  unfold mrsBit
  rw [bind_ok (isPrivileged_conc a)]
  cases a.privileged
  · rfl
  · simp only [if_true]
    have hg : (ofBV (a.reg k)).getItem 0 = .ok (ofBit ((a.reg k).getLsbD 0)) := getItem_ofBV _ 0
    rw [bind_ok (readCore_conc a hk hm), py_bind_ok hg, ← withBit_zero]
    exact py_ok (setItem_ofBV 0#32 0 (by decide) _) _

theorem mrsBasepri_conc (a : Arm) :
    mrsBasepri (ofBV 0#32) a.conc = (.ok (ofBV (if a.privileged then a.reg (-2) &&& 0xff#32 else 0#32)), a.conc) := by
  unfold mrsBasepri
  rw [bind_ok (isPrivileged_conc a)]
  cases a.privileged
  · rfl
  · simp only [if_true]
    have hs : (ofBV (a.reg (-2))).slice 0 8 = .ok (ofBV ((a.reg (-2)).extractLsb' 0 8)) := slice_low _ 8 (by decide)
    rw [bind_ok (readCore_conc a (name := c! "basepri") (k := -2) (by decide) (mem_core.2 (by omega))), py_bind_ok hs]
    exact py_ok (put_low (a.reg (-2)) 8 (by decide)) _

theorem mrsControl_conc (a : Arm) : mrsControl (ofBV 0#32) a.conc = (.ok (ofBV (a.reg (-4) &&& 3#32)), a.conc) := by
  unfold mrsControl
  have hs : (ofBV (a.reg (-4))).slice 0 2 = .ok (ofBV ((a.reg (-4)).extractLsb' 0 2)) := slice_low _ 2 (by decide)
  rw [bind_ok (getControl_conc a), py_bind_ok hs]
  exact py_ok (put_low (a.reg (-4)) 2 (by decide)) _

theorem isBasepri_ok (s : BitVec 8) : isBasepri (ofBV s) = .ok (decide (s.toNat % 8 = 1 ∨ s.toNat % 8 = 2)) := by
  revert s; decide +kernel

theorem mrsMask_conc (a : Arm) (s : BitVec 8) :
    mrsMask (ofBV s) (ofBV 0#32) a.conc =
      (.ok (ofBV (if s.toNat % 8 = 0 then (if a.privileged then a.reg (-1) &&& 1#32 else 0#32)
      else if s.toNat % 8 = 1 ∨ s.toNat % 8 = 2 then (if a.privileged then a.reg (-2) &&& 0xff#32 else 0#32)
      else if s.toNat % 8 = 3 then (if a.privileged then a.reg (-3) &&& 1#32 else 0#32)
      else if s.toNat % 8 = 4 then a.reg (-4) &&& 3#32
      else 0#32)), a.conc) := by
  unfold mrsMask
  obtain ⟨h0, -, -, h3, h4⟩ := low_is s
  rw [py_bind_ok h0]
  by_cases c0 : s.toNat % 8 = 0
  · simp only [c0, decide_true, if_true]
    exact mrsBit_conc a (by decide) (mem_core.2 (by omega))
  · simp only [c0, decide_false, Bool.false_eq_true, if_false]
    rw [py_bind_ok (isBasepri_ok s)]
    by_cases c1 : s.toNat % 8 = 1 ∨ s.toNat % 8 = 2
    · simp only [c1, decide_true, if_true]
      exact mrsBasepri_conc a
    · simp only [c1, decide_false, Bool.false_eq_true, if_false]
      rw [py_bind_ok h3]
      by_cases c3 : s.toNat % 8 = 3
      · simp only [c3, decide_true, if_true]
        exact mrsBit_conc a (by decide) (mem_core.2 (by omega))
      · simp only [c3, decide_false, Bool.false_eq_true, if_false]
        rw [py_bind_ok h4]
        by_cases c4 : s.toNat % 8 = 4
        · simp only [c4, decide_true, if_true]
          exact mrsControl_conc a
        · simp only [c4, decide_false, Bool.false_eq_true, if_false]
          rfl

/-- The value read as a bitstring. -/
def wordRes : PyRes Word → PyRes BS
  | .ok v => .ok (ofBV v)
  | .error e => .error e

theorem mrsValue_conc (a : Arm) (s : BitVec 8) :
    mrsValue (ofBV s) (ofBV 0#32) a.conc = (wordRes (a.special s.toNat), a.conc) := by
  unfold mrsValue Arm.special
  obtain ⟨h0, h1, h2⟩ := high_is s
  rw [py_bind_ok h0]
  by_cases c0 : s.toNat / 8 = 0
  · simp only [c0, decide_true, if_true]
    rw [mrsPsr_conc]
    congr 1
    split <;> rfl
  · simp only [c0, decide_false, Bool.false_eq_true, if_false]
    rw [py_bind_ok h1]
    by_cases c1 : s.toNat / 8 = 1
    · simp only [c1, decide_true, if_true]
      exact mrsSp_conc a s
    · simp only [c1, decide_false, Bool.false_eq_true, if_false]
      rw [py_bind_ok h2]
      by_cases c2 : s.toNat / 8 = 2
      · simp only [c2, decide_true, if_true]
        exact mrsMask_conc a s
      · simp only [c2, decide_false, Bool.false_eq_true, if_false]
        rfl

/-- MRS. -/
def Arm.mrs (a : Arm) (size d : Nat) (s : BitVec 8) : PyRes Unit × Arm :=
  match a.special s.toNat with
  | .ok v => (.ok (), a.afterWrite size d v)
  | .error e => (.error e, a)

theorem mrs_exact {i : Instr} {d : Nat} {s : BitVec 8} (h : (Act.mrs d s).Of i) (a : Arm) :
    i.eval a.conc = outcome i (a.mrs i.size d s) := by
  obtain ⟨hk, hd, hs⟩ := h
  unfold Instr.eval
  rw [hk]
  show Exec.moveFromSpecial i a.conc = _
  unfold Exec.moveFromSpecial
  rw [py_bind_ok (show zeros 32 = .ok (ofBV 0#32) from rfl), py_attr hs]
  have h := mrsValue_conc a s
  unfold Arm.mrs
  cases hsp : a.special s.toNat with
  | error e => rw [hsp] at h; rw [bind_err h]; rfl
  | ok v => rw [hsp] at h; rw [bind_ok h, bind_ok (writeReg_conc hd a _), bind_ok (advance_conc _ _)]; rfl

end Verif
