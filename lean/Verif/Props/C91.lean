import Verif.Lemmas.Traced
import Verif.Props.C90
import Verif.Props.C81

/-!
# C91: accesses to memory
-/

namespace Verif
open BS Thumb

namespace C91
open CpuM (bind_ok)

/-- On the traced machine in state `m`, `x` does what `z` does, and accesses `l`. -/
def Adds {α : Type} (x : Run (Traced Machine) α) (z : CpuM α) (l : List Access) (m : Machine) : Prop :=
  ∀ log, x ⟨m, log⟩ = ((z m).1, ⟨(z m).2, log ++ l⟩)

theorem Adds.of_silent {α : Type} {x : Run (Traced Machine) α} {z : CpuM α} (h : Silent x z) (m : Machine) : Adds x z [] m := fun log => by
  rw [h ⟨m, log⟩, List.append_nil]

theorem Adds.then {α β : Type} {x : Run (Traced Machine) α} {z : CpuM α} {l l' : List Access} {m m' : Machine} {v : α}
    {f : α → Run (Traced Machine) β} {g : α → CpuM β} (h : Adds x z l m) (hz : z m = (.ok v, m')) (hf : Adds (f v) (g v) l' m') :
    Adds (x >>= f) (z >>= g) (l ++ l') m := by
  intro log
  show Run.bind x f _ = ((CpuM.bind z g m).1, ⟨(CpuM.bind z g m).2, _⟩)
  unfold Run.bind CpuM.bind
  rw [h log, hz]
  simp only
  rw [hf (log ++ l), List.append_assoc]

theorem Adds.fails {α β : Type} {x : Run (Traced Machine) α} {z : CpuM α} {l : List Access} {m m' : Machine} {e : PyErr}
    {f : α → Run (Traced Machine) β} {g : α → CpuM β} (h : Adds x z l m) (hz : z m = (.error e, m')) :
    Adds (x >>= f) (z >>= g) l m := by
  intro log
  show Run.bind x f _ = ((CpuM.bind z g m).1, ⟨(CpuM.bind z g m).2, _⟩)
  unfold Run.bind CpuM.bind
  rw [h log, hz]

theorem Adds.quiet {α β : Type} {x : Run (Traced Machine) α} {z : CpuM α} {l : List Access} {m : Machine}
    {f : α → Run (Traced Machine) β} {g : α → CpuM β} (h : Adds x z l m) (hf : ∀ v, Silent (f v) (g v)) :
    Adds (x >>= f) (z >>= g) l m := by
  intro log
  show Run.bind x f _ = ((CpuM.bind z g m).1, ⟨(CpuM.bind z g m).2, _⟩)
  unfold Run.bind CpuM.bind
  rw [h log]
  rcases z m with ⟨r, m'⟩
  cases r with
  | ok v => exact hf v ⟨m', log ++ l⟩
  | error e => rfl

/-- First a silent step. -/
theorem Adds.after {α β : Type} {x : Run (Traced Machine) α} {z : CpuM α} {l : List Access} {m m' : Machine} {v : α}
    {f : α → Run (Traced Machine) β} {g : α → CpuM β} (h : Silent x z) (hz : z m = (.ok v, m')) (hf : Adds (f v) (g v) l m') :
    Adds (x >>= f) (z >>= g) l m := by
  have := Adds.then (Adds.of_silent h m) hz hf
  rwa [List.nil_append] at this

/-- First a computation without the machine. -/
theorem Adds.pure {α β : Type} {r : PyRes α} {l : List Access} {m : Machine} {v : α}
    {f : α → Run (Traced Machine) β} {g : α → CpuM β} (hz : r = .ok v) (hf : Adds (f v) (g v) l m) :
    Adds (Any.py r >>= f) (py r >>= g) l m := by
  subst hz
  exact Adds.after (Silent.py _) rfl hf

theorem attr_ok {α : Type} {o : Option α} {v : α} (h : o = some v) : attr o = .ok v := by subst h; rfl

theorem adds_read (addr : Num) (size : Nat) (m : Machine) : Adds (Any.readMemory addr size) (readMemory addr size) [.read addr.toInt size] m := by
  intro log
  show Run.bind (Delegate.readMemory addr.toInt size) (fun v => Any.py (init v (some size))) (⟨m, log⟩ : Traced Machine) =
    ((CpuM.bind (delegateReadMemory addr.toInt size) (fun v => py (init v (some size))) m).1,
      (⟨(CpuM.bind (delegateReadMemory addr.toInt size) (fun v => py (init v (some size))) m).2, log ++ [.read addr.toInt size]⟩ : Traced Machine))
  unfold Run.bind CpuM.bind
  simp only [Delegate.readMemory, Traced.note]
  rcases delegateReadMemory addr.toInt size m with ⟨r, s'⟩
  cases r <;> rfl

theorem adds_write (addr value : Num) (size : Nat) (m : Machine) :
    Adds (Any.writeMemory addr value size) (writeMemory addr value size) [.write addr.toInt value.toInt size] m := fun _ => rfl

/-- Reading `n` consecutive words, up to one that raises. -/
def reads (mem : List Region) : Nat → Word → List Access
  | 0, _ => []
  | n + 1, x => .read x.toNat 32 :: match peek mem x.toNat 4 with
    | .ok _ => reads mem n (x + 4#32)
    | .error _ => []

/-- Writing registers to consecutive words. -/
def writes (reg : Int → Word) : List Nat → Word → List Access
  | [], _ => []
  | k :: ks, x => .write x.toNat (reg k).toNat 32 :: writes reg ks (x + 4#32)

theorem reads_succ {mem : List Region} {n : Nat} {x : Word} {v : Nat} (h : peek mem x.toNat 4 = .ok v) :
    reads mem (n + 1) x = .read x.toNat 32 :: reads mem n (x + 4#32) := by
  rw [reads, h]

theorem reads_ok : ∀ (ks : List Nat) (x : Word) (a : Arm) {y : Word} {b : Arm}, a.loadAll ks x = (.ok y, b) →
    reads a.mem (ks.length + 1) x = reads a.mem ks.length x ++ [.read y.toNat 32]
  | [], x, a, y, b, h => by
    cases h
    show Access.read x.toNat 32 :: _ = [Access.read x.toNat 32]
    cases peek a.mem x.toNat 4 <;> rfl
  | k :: ks, x, a, y, b, h => by
    unfold Arm.loadAll at h
    cases hp : peek a.mem x.toNat 4 with
    | error e => rw [hp] at h; cases h
    | ok v =>
      rw [hp] at h
      have ih := reads_ok ks (x + 4#32) (a.set k (w32 v)) h
      rw [List.length_cons, reads_succ hp, reads_succ hp]
      exact congrArg (List.cons _) ih

theorem reads_err (n : Nat) : ∀ (ks : List Nat) (x : Word) (a : Arm) {e : PyErr} {b : Arm}, a.loadAll ks x = (.error e, b) →
    reads a.mem (ks.length + n) x = reads a.mem ks.length x
  | [], x, a, e, b, h => by cases h
  | k :: ks, x, a, e, b, h => by
    unfold Arm.loadAll at h
    rw [List.length_cons, show ks.length + 1 + n = ks.length + n + 1 by omega, reads, reads]
    cases hp : peek a.mem x.toNat 4 with
    | error e => rfl
    | ok v =>
      rw [hp] at h
      exact congrArg (List.cons _) (reads_err n ks (x + 4#32) (a.set k (w32 v)) h)

open Exec

/-- The accesses that the program makes: one for a load or a store, and one for each register of a list in
increasing order, up to one that raises. PUSH of SP stores the new value. -/
def made (mem : List Region) (c : Core) : Act → List Access
  | .load sz _ _ n off => [.read (c.reg n + off.val c).toNat sz]
  | .store sz t n off => [.write (c.reg n + off.val c).toNat ((c.reg t).toNat % 2 ^ sz : Nat) sz]
  | .loadLit sz _ add _ imm => [.read (C57.address (c.reg 15) add imm).toNat sz]
  | .push r => writes (c.set 13 (c.reg 13 - w32 (4 * count r))).reg (low15 r) (c.reg 13 - w32 (4 * count r))
  | .pop r => reads mem (count r) (c.reg 13)
  | .ldm n _ r => reads mem (count r) (c.reg n)
  | .stm n _ r => writes c.reg (low15 r) (c.reg n)
  | _ => []

/-! ### What the program accesses -/

theorem store_loop (r : BitVec 16) : ∀ (ks : List Nat) (x : Word) (a : Arm), (∀ k ∈ ks, k < 16) →
    Adds (Any.storeLoop (ofBV r) ks (ofBV x)) (storeLoop (ofBV r) ks (ofBV x)) (writes a.reg (ks.filter fun k => r.getLsbD k) x) a.conc
  | [], x, a, _ => Adds.of_silent (Silent.pure _) _
  | k :: ks, x, a, h => by
    rw [Any.storeLoop, storeLoop]
    refine Adds.pure (getItem_ofBV r k) ?_
    rw [nonzero_ofBit]
    cases hk : r.getLsbD k
    · simp only [Bool.false_eq_true, if_false]
      rw [List.filter_cons_of_neg (by simp [hk])]
      exact store_loop r ks x a (fun j hj => h j (List.mem_cons_of_mem _ hj))
    · simp only [if_true]
      rw [List.filter_cons_of_pos (by simpa using hk)]
      refine Adds.after (Any.silent_getR _) (getR_conc a k (h k List.mem_cons_self)) ?_
      refine Adds.then (l := [.write x.toNat (a.reg k).toNat 32]) (adds_write (.bs (ofBV x)) (.bs (ofBV (a.reg k))) 32 _) (write_word a x _) ?_
      exact Adds.pure (plus4 x) (store_loop r ks _ (a.poke x 4 (a.reg k)) (fun j hj => h j (List.mem_cons_of_mem _ hj)))

theorem load_loop (r : BitVec 16) : ∀ (ks : List Nat) (x : Word) (a : Arm), (∀ k ∈ ks, k < 16) →
    Adds (Any.loadLoop (ofBV r) ks (ofBV x)) (loadLoop (ofBV r) ks (ofBV x)) (reads a.mem (ks.filter fun k => r.getLsbD k).length x) a.conc
  | [], x, a, _ => Adds.of_silent (Silent.pure _) _
  | k :: ks, x, a, h => by
    rw [Any.loadLoop, loadLoop]
    refine Adds.pure (getItem_ofBV r k) ?_
    rw [nonzero_ofBit]
    cases hk : r.getLsbD k
    · simp only [Bool.false_eq_true, if_false]
      rw [List.filter_cons_of_neg (by simp [hk])]
      exact load_loop r ks x a (fun j hj => h j (List.mem_cons_of_mem _ hj))
    · simp only [if_true]
      rw [List.filter_cons_of_pos (by simpa using hk), List.length_cons, reads]
      have hr := read_word a x
      unfold peekWord at hr
      cases hp : peek a.mem x.toNat 4 with
      | error e =>
        rw [hp] at hr
        exact Adds.fails (adds_read (.bs (ofBV x)) 32 _) hr
      | ok v =>
        rw [hp] at hr
        refine Adds.then (l := [.read x.toNat 32]) (adds_read (.bs (ofBV x)) 32 _) hr ?_
        rw [bv_eq_ofBV]
        refine Adds.after (Any.silent_setR _ _) (setR_conc a k (h k List.mem_cons_self) _) ?_
        exact Adds.pure (plus4 x) (load_loop r ks _ (a.set k (w32 v)) (fun j hj => h j (List.mem_cons_of_mem _ hj)))

theorem load_pc (i : Instr) (r : BitVec 16) (x : Word) (m : Machine) :
    Adds (Any.loadPc i (ofBV r) (ofBV x)) (Exec.loadPc i (ofBV r) (ofBV x)) (if r.getLsbD 15 then [.read x.toNat 32] else []) m := by
  unfold Any.loadPc Exec.loadPc
  refine Adds.pure (show (ofBV r).getItem 15 = .ok (ofBit (r.getLsbD 15)) from getItem_ofBV r 15) ?_
  rw [nonzero_ofBit]
  cases r.getLsbD 15
  · simp only [Bool.false_eq_true, if_false]
    exact Adds.of_silent (Any.silent_advance i) m
  · simp only [if_true]
    exact Adds.quiet (adds_read (.bs (ofBV x)) 32 m) fun _ => Any.silent_setPc _

/-- The loop and the program counter. -/
theorem load_regs {β : Type} (i : Instr) (r : BitVec 16) (x : Word) (a : Arm) {f : Unit → Run (Traced Machine) β} {g : Unit → CpuM β}
    (hf : ∀ u, Silent (f u) (g u)) :
    Adds (do
        let y ← Any.loadLoop (ofBV r) (List.range 15) (ofBV x)
        let u ← Any.loadPc i (ofBV r) y
        f u) (do
        let y ← loadLoop (ofBV r) (List.range 15) (ofBV x)
        let u ← Exec.loadPc i (ofBV r) y
        g u) (reads a.mem (count r) x) a.conc := by
  have h := loadLoop_conc r (List.range 15) x a range15
  have hl := load_loop r (List.range 15) x a range15
  rw [count_eq]
  unfold low15
  cases ha : a.loadAll ((List.range 15).filter fun k => r.getLsbD k) x with
  | mk res b =>
    rw [ha] at h
    cases res with
    | error e =>
      rw [reads_err _ _ _ _ ha]
      exact Adds.fails hl h
    | ok y =>
      have := Adds.then (f := fun y => Any.loadPc i (ofBV r) y >>= f) (g := fun y => Exec.loadPc i (ofBV r) y >>= g) hl h
        (Adds.quiet (load_pc i r y b.conc) hf)
      cases h15 : r.getLsbD 15
      · rw [h15] at this
        simpa using this
      · rw [h15] at this
        rw [Bool.toNat_true, reads_ok _ _ _ ha]
        exact this

theorem load {i : Instr} {sz : Nat} {sgn : Bool} {t n : Nat} {off : Off} (h : (Act.load sz sgn t n off).Of i)
    (hs : ∀ m sh, off = .reg m sh → sh.1 = .rrx → sh.2 = 1) (a : Arm) :
    Adds (Any.load i) (Exec.load i) [.read (a.reg n + off.got a).toNat sz] a.conc := by
  obtain ⟨hk, hms, hsg, ht, hn, hidx, hadd, hwb, hoff⟩ := h
  unfold Any.load Exec.load
  refine Adds.after (Any.silent_memOffset i) (memOffset_conc hoff hs a) ?_
  refine Adds.after (Any.silent_offsetAddr i _) (offsetAddr_conc hn hadd _ a) ?_
  refine Adds.after (Any.silent_accessAddr i _) (accessAddr_conc hidx _ a) ?_
  refine Adds.pure (attr_ok hms) ?_
  refine Adds.quiet (adds_read (.bs (ofBV (a.reg n + off.got a))) sz a.conc) fun v => ?_
  exact Silent.bind (Silent.py _) fun _ => Silent.bind (Any.silent_writeIf _ _ _) fun _ => Silent.bind (Silent.py _) fun _ =>
    Silent.bind (Silent.py _) fun _ => Silent.bind (Any.silent_writeReg _ _) fun _ => Silent.bind (Any.silent_advance _) fun _ => Silent.pure _

theorem load_lit {i : Instr} {sz : Nat} {sgn add : Bool} {t : Nat} {imm : Word} (h : (Act.loadLit sz sgn add t imm).Of i) (a : Arm) :
    Adds (Any.loadLiteral i) (Exec.loadLiteral i)
      [.read (if add then align4 (a.reg 15 + 4#32) + imm else align4 (a.reg 15 + 4#32) - imm).toNat sz] a.conc := by
  obtain ⟨hk, hms, hsg, hadd, ht, himm⟩ := h
  unfold Any.loadLiteral Exec.loadLiteral
  refine Adds.after Any.silent_pcForInstr (pcForInstr_conc a) ?_
  refine Adds.pure (align_word _) ?_
  refine Adds.pure (attr_ok hadd) ?_
  refine Adds.pure (attr_ok himm) ?_
  refine Adds.pure (plusMinus _ _ _) ?_
  refine Adds.pure (attr_ok hms) ?_
  refine Adds.quiet (adds_read (.bs (ofBV _)) sz a.conc) fun v => ?_
  exact Silent.bind (Silent.py _) fun _ =>
    Silent.bind (Silent.py _) fun _ => Silent.bind (Any.silent_writeReg _ _) fun _ => Silent.bind (Any.silent_advance _) fun _ => Silent.pure _

theorem store {i : Instr} {sz t n : Nat} {off : Off} (h : (Act.store sz t n off).Of i) (hsz : SizeOK sz)
    (hs : ∀ m sh, off = .reg m sh → sh.1 = .rrx → sh.2 = 1) (a : Arm) :
    Adds (Any.store i) (Exec.store i) [.write (a.reg n + off.got a).toNat ((a.reg t).toNat % 2 ^ sz : Nat) sz] a.conc := by
  obtain ⟨hk, hms, ht, hn, hidx, hadd, hoff⟩ := h
  unfold Any.store Exec.store
  refine Adds.after (Any.silent_memOffset i) (memOffset_conc hoff hs a) ?_
  refine Adds.after (Any.silent_offsetAddr i _) (offsetAddr_conc hn hadd _ a) ?_
  refine Adds.after (Any.silent_accessAddr i _) (accessAddr_conc hidx _ a) ?_
  refine Adds.after (Any.silent_readReg _) (readReg_conc ht a) ?_
  refine Adds.pure (attr_ok hms) ?_
  refine Adds.pure (slice_low _ sz (by rcases hsz with rfl | rfl | rfl <;> decide)) ?_
  have hw := adds_write (.bs (ofBV (a.reg n + off.got a))) (.bs (ofBV ((a.reg t).extractLsb' 0 sz))) sz a.conc
  have hv : (Num.bs (ofBV ((a.reg t).extractLsb' 0 sz))).toInt = (((a.reg t).toNat % 2 ^ sz : Nat) : Int) := by
    show (((a.reg t).extractLsb' 0 sz).toNat : Int) = _
    rw [BitVec.extractLsb'_toNat, Nat.shiftRight_zero]
  rw [hv] at hw
  exact Adds.quiet hw fun _ => Silent.bind (Any.silent_advance _) fun _ => Silent.pure _

theorem push {i : Instr} {r : BitVec 16} (h : (Act.push r).Of i) (a : Arm) :
    Adds (Any.push i) (Exec.push i)
      (writes (a.set 13 (a.reg 13 - w32 (4 * count r))).reg (low15 r) (a.reg 13 - w32 (4 * count r))) a.conc := by
  obtain ⟨hk, hr⟩ := h
  unfold Any.push Exec.push
  refine Adds.after Any.silent_getSp (getSp_conc a) ?_
  refine Adds.pure (attr_ok hr) ?_
  rw [bitCount_ofBV]
  refine Adds.pure (minusN _ _) ?_
  refine Adds.after (Any.silent_setSp _) (setSp_conc _ _) ?_
  exact Adds.quiet (store_loop r _ _ (a.set 13 (a.reg 13 - w32 (4 * count r))) range15) fun _ => Silent.bind (Any.silent_advance _) fun _ => Silent.pure _

theorem pop {i : Instr} {r : BitVec 16} (h : (Act.pop r).Of i) (a : Arm) :
    Adds (Any.pop i) (Exec.pop i) (reads a.mem (count r) (a.reg 13)) a.conc := by
  obtain ⟨hk, hr⟩ := h
  unfold Any.pop Exec.pop
  refine Adds.after Any.silent_getSp (getSp_conc a) ?_
  refine Adds.after Any.silent_getSp (getSp_conc a) ?_
  refine Adds.pure (attr_ok hr) ?_
  rw [bitCount_ofBV]
  refine Adds.pure (plusN _ _) ?_
  refine Adds.after (Any.silent_setSp _) (setSp_conc _ _) ?_
  exact load_regs i r _ (a.set 13 (a.reg 13 + w32 (4 * count r))) fun _ => Silent.pure _

theorem ldm {i : Instr} {n : Nat} {wback : Bool} {r : BitVec 16} (h : (Act.ldm n wback r).Of i) (a : Arm) :
    Adds (Any.loadMultiple i) (Exec.loadMultiple i) (reads a.mem (count r) (a.reg n)) a.conc := by
  obtain ⟨hk, hn, hw, hr⟩ := h
  unfold Any.loadMultiple Exec.loadMultiple
  refine Adds.after (Any.silent_readReg _) (readReg_conc hn a) ?_
  refine Adds.pure (attr_ok hr) ?_
  exact load_regs i r _ a fun _ => Silent.bind (Silent.py _) fun _ => Silent.bind (Any.silent_ldmWriteBack _ _ _) fun _ => Silent.pure _

theorem stm {i : Instr} {n : Nat} {wback : Bool} {r : BitVec 16} (h : (Act.stm n wback r).Of i) (a : Arm) :
    Adds (Any.storeMultiple i) (Exec.storeMultiple i) (writes a.reg (low15 r) (a.reg n)) a.conc := by
  obtain ⟨hk, hn, hw, hr⟩ := h
  unfold Any.storeMultiple Exec.storeMultiple
  refine Adds.after (Any.silent_readReg _) (readReg_conc hn a) ?_
  refine Adds.pure (attr_ok hr) ?_
  exact Adds.quiet (store_loop r _ _ a range15) fun _ => Silent.bind (Silent.py _) fun _ => Silent.bind (Any.silent_writeIf _ _ _) fun _ =>
    Silent.bind (Any.silent_advance _) fun _ => Silent.pure _

/-- The classes whose `_eval` uses memory. -/
def memoryClasses : List Klass := [.load, .store, .loadLiteral, .push, .pop, .loadMultiple, .storeMultiple]

theorem silent_eval {i : Instr} (h : i.klass ∉ memoryClasses) : Silent (Any.eval i) i.eval := by
  unfold Any.eval Instr.eval
  generalize i.klass = k at h
  cases k with
  | instruction => exact Any.silent_plain i
  | addSub => exact Any.silent_addSub i
  | bitOp => exact Any.silent_bitOp i
  | bitClear => exact Any.silent_bitClear i
  | shiftOp => exact Any.silent_shiftOp i
  | reverseSubtract => exact Any.silent_reverseSubtract i
  | multiply => exact Any.silent_multiply i
  | addressToRegister => exact Any.silent_addressToRegister i
  | extend => exact Any.silent_extend i
  | byteReverse => exact Any.silent_byteReverse i
  | move => exact Any.silent_move i
  | shiftedMoveNegate => exact Any.silent_shiftedMoveNegate i
  | compare => exact Any.silent_compare i
  | test => exact Any.silent_test i
  | branch => exact Any.silent_branch i
  | changeProcessorState => exact Any.silent_changeProcessorState i
  | moveFromSpecial => exact Any.silent_moveFromSpecial i
  | moveToSpecial => exact Any.silent_plain i
  | _ => exact absurd (by decide) h

/-- **C91, exactly.** The accesses to memory of every action in every state. -/
theorem trace_exact {i : Instr} {act : Act} (h : act.Of i) (hv : act.Valid) (hp : act.NoPc) {s : Machine} {c : Core} (hs : Shows s c)
    (log : List Access) : Any.eval i (⟨s, log⟩ : Traced Machine) = ((i.eval s).1, ⟨(i.eval s).2, log ++ made s.mem c act⟩) := by
  obtain ⟨a, rfl, rfl, -⟩ := hs.arm
  suffices Adds (Any.eval i) i.eval (made a.mem a.core act) a.conc from this log
  have none : i.klass ∉ memoryClasses → Adds (Any.eval i) i.eval [] a.conc := fun h => Adds.of_silent (silent_eval h) _
  cases act with
  | load sz sgn t n off =>
    have := load h (fun m sh e => by have := hv.2; rw [e] at this; exact this) a
    rw [← off_val hp.2.2] at this
    unfold Any.eval Instr.eval
    rw [h.1]
    exact this
  | store sz t n off =>
    have := store h hv.1 (fun m sh e => by have := hv.2; rw [e] at this; exact this) a
    rw [← off_val hp.2.2] at this
    unfold Any.eval Instr.eval
    rw [h.1]
    exact this
  | loadLit sz sgn add t imm =>
    have := load_lit h a
    show Adds _ _ [.read (C57.address (a.core.reg 15) add imm).toNat sz] _
    rw [← C57.address_eq]
    unfold Any.eval Instr.eval
    rw [h.1]
    exact this
  | push r =>
    have := push h a
    unfold Any.eval Instr.eval
    rw [h.1]
    exact this
  | pop r =>
    have := pop h a
    unfold Any.eval Instr.eval
    rw [h.1]
    exact this
  | ldm n wback r =>
    have := ldm h a
    unfold Any.eval Instr.eval
    rw [h.1]
    exact this
  | stm n wback r =>
    have := stm h a
    unfold Any.eval Instr.eval
    rw [h.1]
    exact this
  | plain => exact none (by rw [show i.klass = .instruction from h]; decide)
  | _ => exact none (by rw [h.1]; decide)

/-! ### What the architecture accesses -/

/-- The accesses of the architecture. -/
def accesses (c : Core) : Act → List Access
  | .load sz _ _ n off => [.read (c.reg n + off.val c).toNat sz]
  | .store sz t n off => [.write (c.reg n + off.val c).toNat ((c.reg t).toNat % 2 ^ sz : Nat) sz]
  | .loadLit sz _ add _ imm => [.read (C57.address (c.reg 15) add imm).toNat sz]
  | .push r => (listed r).mapIdx fun j (k : Nat) => .write (c.reg 13 - w32 (4 * count r) + w32 (4 * j)).toNat (c.reg k).toNat 32
  | .pop r => (listed r).mapIdx fun j _ => .read (c.reg 13 + w32 (4 * j)).toNat 32
  | .ldm n _ r => (listed r).mapIdx fun j _ => .read (c.reg n + w32 (4 * j)).toNat 32
  | .stm n _ r => (listed r).mapIdx fun j (k : Nat) => .write (c.reg n + w32 (4 * j)).toNat (c.reg k).toNat 32
  | _ => []

theorem next_word (x : Word) (j : Nat) : x + 4#32 + w32 (4 * j) = x + w32 (4 * (j + 1)) := by
  rw [BitVec.add_assoc]
  unfold w32
  rw [← BitVec.ofNat_add, show 4 + 4 * j = 4 * (j + 1) by omega]

theorem writes_eq (reg reg' : Int → Word) : ∀ (ks : List Nat) (x : Word), (∀ k ∈ ks, reg k = reg' k) →
    writes reg ks x = ks.mapIdx fun j k => .write (x + w32 (4 * j)).toNat (reg' k).toNat 32
  | [], _, _ => rfl
  | k :: ks, x, h => by
    rw [writes, List.mapIdx_cons, writes_eq reg reg' ks _ (fun j hj => h j (List.mem_cons_of_mem _ hj)), h k List.mem_cons_self]
    simp only [next_word]
    rw [show x + w32 (4 * 0) = x by simp [w32]]

theorem reads_eq {mem : List Region} : ∀ (ks : List Nat) (x : Word),
    (∀ j, j < ks.length → ∃ v, peek mem (x + w32 (4 * j)).toNat 4 = .ok v) →
    reads mem ks.length x = ks.mapIdx fun j _ => .read (x + w32 (4 * j)).toNat 32
  | [], _, _ => rfl
  | k :: ks, x, h => by
    have h0 : x + w32 (4 * 0) = x := by simp [w32]
    obtain ⟨v, hv⟩ := h 0 (by simp)
    rw [h0] at hv
    rw [List.length_cons, reads_succ hv, List.mapIdx_cons, reads_eq ks _ (fun j hj => by
      rw [next_word]; exact h (j + 1) (by simp; omega)), h0]
    simp only [next_word]

/-- The registers that PUSH and STM cannot name. -/
def ListOK : Act → Prop
  | .push r => r.getLsbD 13 = false ∧ r.getLsbD 15 = false
  | .stm _ _ r => r.getLsbD 15 = false
  | _ => True

/-- **C91.** With the words in memory, the accesses of an instruction are exactly those of the architecture:
nothing is read twice, nothing else is touched, and the words of a list are accessed in increasing order. -/
theorem trace {i : Instr} {act : Act} (h : act.Of i) (hv : act.Valid) (hp : act.NoPc) (hl : ListOK act) {s : Machine} {c : Core}
    (hs : Shows s c) (hm : MemOK s.mem) (hin : C81.InMemory s.mem c act) (log : List Access) :
    Any.eval i (⟨s, log⟩ : Traced Machine) = ((i.eval s).1, ⟨(i.eval s).2, log ++ accesses c act⟩) := by
  rw [trace_exact h hv hp hs log]
  have hlow : ∀ r : BitVec 16, r.getLsbD 15 = false → listed r = low15 r := fun r h => by rw [listed_eq, h]; simp
  have hreads : ∀ (r : BitVec 16) (x : Word), (∀ j, j < count r → Inside s.mem (x + w32 (4 * j)).toNat 4) →
      reads s.mem (count r) x = (listed r).mapIdx fun j _ => .read (x + w32 (4 * j)).toNat 32 := fun r x hx =>
    reads_eq (listed r) x fun j hj => by
      obtain ⟨_, _, _, u, h3, _⟩ := peek_inside hm (by omega) (hx j hj)
      exact ⟨u, h3⟩
  suffices made s.mem c act = accesses c act by rw [this]
  cases act with
  | push r =>
    show writes _ (low15 r) _ = (listed r).mapIdx _
    rw [hlow r hl.2]
    refine writes_eq _ _ _ _ fun k hk => ?_
    have h13 : k ≠ 13 := by
      rintro rfl
      have := (List.mem_filter.1 hk).2
      rw [hl.1] at this
      cases this
    have := low15_lt k hk
    rw [core_reg_set, if_neg (by omega)]
  | stm n wback r =>
    show writes _ (low15 r) _ = (listed r).mapIdx _
    rw [hlow r hl]
    exact writes_eq _ _ _ _ fun k hk => rfl
  | pop r => exact hreads r _ hin
  | ldm n wback r => exact hreads r _ hin
  | _ => rfl

/-- Delegates that answer alike still do so if the accesses are noted. -/
theorem traced_alike {σ τ : Type} [Delegate σ] [Delegate τ] {R : σ → τ → Prop} (h : Alike R) :
    Alike (σ := Traced σ) (τ := Traced τ) fun s t => R s.state t.state ∧ s.log = t.log where
  readRegister k s t hst := by
    obtain ⟨h1, h2⟩ := h.readRegister k s.state t.state hst.1
    exact ⟨h1, h2, hst.2⟩
  writeRegister k v s t hst := by
    obtain ⟨h1, h2⟩ := h.writeRegister k v s.state t.state hst.1
    exact ⟨h1, h2, hst.2⟩
  readMemory a n s t hst := by
    obtain ⟨h1, h2⟩ := h.readMemory a n s.state t.state hst.1
    exact ⟨h1, h2, congrArg (· ++ [_]) hst.2⟩
  writeMemory a v n s t hst := by
    obtain ⟨h1, h2⟩ := h.writeMemory a v n s.state t.state hst.1
    exact ⟨h1, h2, congrArg (· ++ [_]) hst.2⟩

/-- **C91.** The same on every delegate that answers like the shipped one. -/
theorem trace_any {σ : Type} [Delegate σ] {R : σ → Machine → Prop} (hR : Alike R) {i : Instr} {act : Act} (h : act.Of i) (hv : act.Valid)
    (hp : act.NoPc) (hl : ListOK act) {d : σ} {s : Machine} {c : Core} (hd : R d s) (hs : Shows s c) (hm : MemOK s.mem)
    (hin : C81.InMemory s.mem c act) (log : List Access) :
    (Any.eval i (⟨d, log⟩ : Traced σ)).2.log = log ++ accesses c act := by
  obtain ⟨-, -, h2⟩ := C90.alike (traced_alike hR) i (s := ⟨d, log⟩) (t := ⟨s, log⟩) ⟨hd, rfl⟩
  rw [h2, trace h hv hp hl hs hm hin]

theorem regs_bit13 {m r : Nat} (hr : r < 2 ^ 13) : (regs 0 m r).getLsbD 13 = false := by
  unfold regs
  rw [BitVec.getLsbD_ofNat, Nat.testBit_eq_decide_div_mod_eq]
  simp only [Nat.reduceLT, decide_true, Bool.true_and, decide_eq_false_iff_not]
  omega

theorem single_bit13 : ∀ t : Fin 16, t ≠ 13 → (single t).getLsbD 13 = false := by decide

theorem case_list : ∀ c ∈ Case.all, ∀ w, c.enc.ok (field c.enc.pat w) = true → ListOK (c.act (field c.enc.pat w)) := by
  intro c hc w hw
  have h15 := C72.lists c hc w hw
  suffices h : ∀ c ∈ Case.all, ∀ w, c.enc.ok (field c.enc.pat w) = true → ∀ r, c.act (field c.enc.pat w) = .push r → r.getLsbD 13 = false by
    cases ha : c.act (field c.enc.pat w) with
    | push r => rw [ha] at h15; exact ⟨h c hc w hw r ha, h15⟩
    | stm n wback r => rw [ha] at h15; exact h15
    | _ => trivial
  clear hw h15 hc w c
  simp only [Case.all, List.forall_mem_cons]
  repeat' refine And.intro ?_ ?_
  all_goals first
    | exact fun w _ r hr => Act.noConfusion hr
    | exact fun c hc => absurd hc (List.not_mem_nil)
    | skip
  · intro w _ r hr
    cases hr
    exact regs_bit13 (C72.field_lt _ w 'r' 13 (by decide))
  · intro w _ r hr
    cases hr
    exact regs_bit13 (C72.field_lt _ w 'r' 13 (by decide))
  · intro w h r hr
    cases hr
    have h1 := C72.field_lt Thumb.pushOne.pat w 't' 4 (by decide)
    refine single_bit13 ⟨_, h1⟩ ?_
    intro e
    have e' : field Thumb.pushOne.pat w 't' = 13 := congrArg Fin.val e
    have h2 : plainReg (field Thumb.pushOne.pat w 't') = true := h
    rw [e'] at h2
    exact absurd h2 (by decide)

/-- **C91.** From the bytes: for every valid word of every encoding that is decoded as the manual says. -/
theorem decode_trace_partial (e : Enc) (he : e ∈ encodings) (w : Nat) (h : e.Is w) (hx : ¬ Wrong e (field e.pat w))
    (hp : (e.act (field e.pat w)).NoPc) (rest : List Nat) (hr : ∀ b ∈ rest, b < 256) (address : Int) {s : Machine} {c : Core}
    (hs : Shows s c) (hm : MemOK s.mem) (hin : C81.InMemory s.mem c (e.act (field e.pat w))) :
    ∃ i, (trees.decode (C38.bytesOf e w ++ rest) address).1 = .ok i ∧
      (Any.eval i (⟨s, []⟩ : Traced Machine)).2.log = accesses c (e.act (field e.pat w)) := by
  obtain ⟨k, hk, rfl⟩ := C38.caseOf he
  obtain ⟨ha, hn⟩ := (agrees k hk w h.2.1 h.2.2).1 hx
  obtain ⟨i, h1, h2, h3⟩ := case_decodes hk h hn rest hr address
  have hl := case_list k hk w h.2.2
  have hv := sound k hk w
  rw [ha] at h2 hl hv
  refine ⟨i, h1, ?_⟩
  rw [trace h2 hv hp hl hs hm hin]
  rfl

/-- The accesses of the bytes of an instruction. -/
def accessed (bytes : List Nat) (s : Machine) : Option (List Access) :=
  (trees.decode bytes 0).1.toOption.map fun i => (Any.eval i (⟨s, []⟩ : Traced Machine)).2.log

/-- `push {r0, r1, lr}`, `ldrh r2, [r0, r1]` and `add r0, r1`. -/
example : accessed [0x03, 0xb5] (sample [(0, 7), (1, 8), (13, 0x100), (14, 9)]) =
      some [.write 0xf4 7 32, .write 0xf8 8 32, .write 0xfc 9 32] ∧
    accessed [0x42, 0x5a] (sample [(0, 0x10), (1, 0x20)]) = some [.read 0x30 16] ∧
    accessed [0x08, 0x44] (sample [(0, 0x10), (1, 0x20)]) = some [] := by
  refine ⟨?_, ?_, ?_⟩ <;> rw [accessed, trees, decoders_eq] <;> decide +kernel

/-- A load that raises midway: POP of three words of which the second reaches past the end of memory. -/
example : accessed [0x07, 0xbc] (sample [(13, 0x10)] [⟨0x10, 0x15, [1, 2, 3, 4, 5, 6]⟩]) = some [.read 0x10 32, .read 0x14 32] := by
  rw [accessed, trees, decoders_eq]
  decide +kernel

end C91
end Verif
