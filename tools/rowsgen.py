import sys
sys.path.insert(0,'/verif/tools')
from casesgen import *
import textwrap
def fields_lean(qs): return '['+', '.join('⟨c! "%s", %d, %d⟩'%q for q in qs)+']'
import subprocess
params={}
for l in subprocess.run(['python3','/verif/tools/table.py','x'],capture_output=True,text=True).stdout.splitlines():
    h=l.split(' ',3); params[h[0]]=eval(h[3])
HEAD='''import Verif.Lemmas.Args

/-!
# Every encoding decodes as the table says

Generated: one theorem for each of the 122 encodings, proved by unfolding the handler.
-/

namespace Verif
open BS Thumb Handler

/-- Decoding words of this encoding with `d` gives what the case says. -/
def Case.Correct (c : Case) (d : Dec) : Prop := ∀ (w : Nat) (a : Int), fits c.enc.pat w = true →
  (∀ e, c.raises (field c.enc.pat w) = some e → d.decode w a = .error e) ∧
  (c.raises (field c.enc.pat w) = none → ∃ i, d.decode w a = .ok i ∧ i.word = w ∧ i.address = a ∧ i.is32 = d.is32 ∧
    i.mnemonic = c.enc.mnem (field c.enc.pat w) ∧ (c.act (field c.enc.pat w)).Of i ∧
    i.operands = c.ops (field c.enc.pat w))

theorem reg_lt {n : Nat} (x : BitVec n) (h : n ≤ 4) : x.toNat < 16 :=
  Nat.lt_of_lt_of_le x.isLt (Nat.pow_le_pow_right (by omega) h)

theorem raises_if {c : Prop} [Decidable c] {b : Bool} {err : PyErr} {d k : PyRes Instr} {P : Prop}
    (e : d = (raiseIf b err >>= fun _ => k)) (h : b = decide c) (h2 : ¬ c → d = k → P) :
    (∀ x, (if c then some err else none) = some x → d = .error x) ∧ ((if c then some err else none) = none → P) := by
  subst h
  by_cases hc : c
  · simp only [hc, if_true, Option.some.injEq, reduceCtorEq, false_imp_iff, and_true]
    rintro x rfl; rw [e]; simp [raiseIf, hc]; try rfl
  · simp only [hc, if_false, reduceCtorEq, false_imp_iff, implies_true, true_and, true_imp_iff]
    apply h2 hc; rw [e]; simp [raiseIf, hc]; try rfl

theorem raises_unless {b c : Bool} {err : PyErr} {d k : PyRes Instr} {P : Prop}
    (e : d = (raiseIf b err >>= fun _ => k)) (h : b = !c) (h2 : c = true → d = k → P) :
    (∀ x, (if c = true then none else some err) = some x → d = .error x) ∧
    ((if c = true then none else some err) = none → P) := by
  subst h
  cases c
  · simp only [Bool.false_eq_true, if_false, Option.some.injEq, reduceCtorEq, false_imp_iff, and_true]
    rintro x rfl; rw [e]; simp [raiseIf]; try rfl
  · simp only [if_true, reduceCtorEq, false_imp_iff, implies_true, true_and, true_imp_iff]
    apply h2 rfl; rw [e]; simp [raiseIf]; try rfl

theorem raiseIf_raiseIf {a b : Bool} {err : PyErr} {k : PyRes Instr} :
    (raiseIf a err >>= fun _ => raiseIf b err >>= fun _ => k) = (raiseIf (a || b) err >>= fun _ => k) := by
  cases a <;> cases b <;> rfl

theorem raises_if_unless {c : Prop} [Decidable c] {a b ok : Bool} {e1 e2 : PyErr} {d k : PyRes Instr} {P : Prop}
    (e : d = (raiseIf a e1 >>= fun _ => raiseIf b e2 >>= fun _ => k)) (ha : a = decide c) (h : ¬ c → b = !ok)
    (h2 : ok = true → d = k → P) :
    (∀ x, (if c then some e1 else if ok = true then none else some e2) = some x → d = .error x) ∧
    ((if c then some e1 else if ok = true then none else some e2) = none → P) := by
  subst ha
  by_cases hc : c
  · simp only [hc, if_true, Option.some.injEq, reduceCtorEq, false_imp_iff, and_true]
    rintro x rfl; rw [e]; simp [raiseIf, hc]; try rfl
  · simp only [hc, if_false]
    refine raises_unless ?_ (h hc) h2
    rw [e]; simp [raiseIf, hc]; try rfl

macro "row_simp" e:ident : tactic => `(tactic|
  simp only [List.map, Handler.run, unsigned_ofBV, nonzero_ofBV, concat_ofBV, mod_0, mod_00, mod_6, mod_7, imod_eq_mod, zx32, sx32,
      isStr1, isStr0, isStr00, isStrSp, ne10, eqInt0, neBS, zeros32, zeros16, bit0_eq, zero8_eq, single_eq, count_ofBV, neverAlways_eq,
      rotations_eq, condName_eq, labelSigned_eq, expandImm, immShift_eq, immShift_lsl, immShift_lsr, immShift_asr, xor_ofBV, invert_ofBV, getItem_ofBV, isStrBit0, isStrBit1, okBind, truthy, regs_push, regs_pop, regs_low, regs_stm, regs_ldm, regs_bit, special_eq, raiseIf_raiseIf, Nat.reduceLeDiff, Nat.reduceAdd, Nat.reduceLT] at $e:ident)

macro "row_ok" e:ident : tactic => `(tactic|
  (refine ⟨_, $e, rfl, rfl, rfl, ?_, ?_, ?_⟩ <;>
    simp [Act.Of, Src.Of, Off.Of, IsReg, FlagsOf, wants_always, wants_never, wants_outside, wants_one, Dec.fresh, Klass.new, Kw.set, reg_lt, dotW_eq,
      scaled_4, scaled_2, w32_toNat, scaled_4_val, scaled_2_val, scaled_1_val, shl_4, shl_2, dotW_zero, dotW_one, movw_val, udf_val, eight_zero, movw_imm,
      udf_imm, low_reg, signed_9, signed_12, bl_offset, memOps, multiOps, im, rg]))

namespace Rows
'''
def gen(case):
    name,pat,d,ops,ra,a=case
    out=[]
    D=lean(d).replace('\n    ',' ')
    fs={f[0]:f for f in d[7]}
    qs=[fs[p] for p in params[d[2]]]
    out.append("theorem %s : Case.%s.Correct\n    %s := by"%(name,name,D))
    out.append("  intro w a hf")
    out.append("  have e := decode_eq (d := %s)\n    (qs := %s) rfl w a"%(D,fields_lean(qs)))
    letters=sorted(set(pat)-set('01'))
    for c in letters:
        r=runs(places(pat,c))
        fn={1:'field_one',2:'field_two',3:'field_three'}[len(r)]
        out.append("  have f%s := %s (pat := Thumb.%s.pat) (c := '%s') %s (by decide) w"%(c,fn,name,c,' '.join('%d %d'%tuple(x) for x in r)))
    sls=set()
    for c in letters:
        for r in runs(places(pat,c)): sls.add(tuple(r))
    fixed=[q for q in qs if (q[1],q[2]) not in sls]
    for q in fixed:
        out.append("  have x%s : sl w %d %d = %d#%d := fixed_sl (d := %s) rfl hf %d %d (by decide) (by decide)"%(q[0],q[1],q[2],(d[6]>>q[1])&((1<<q[2])-1),q[2],D,q[1],q[2]))
        out.append("  simp only [List.map, x%s] at e"%q[0])
    if letters:
        out.append("  change _ ∧ _")
        out.append("  generalize hg : field Case.%s.enc.pat w = f"%name)
        out.append("  have hg' : field Thumb.%s.pat w = f := hg"%name)
        out.append("  rw [hg'] at %s"%' '.join('f'+c for c in letters))
    if name=='movImmW':
        out.append("  obtain ⟨c, hc⟩ := expandImmC (sl w 10 1 ++ sl w 28 3 ++ sl w 16 8) rfl\n  simp only [bit0_eq] at hc")
    if name=='movImmW': out.append("  simp only [List.map, Handler.run, concat_ofBV, bit0_eq, hc] at e")
    out.append("  row_simp e")
    out.append("  simp only [Case.%s, Thumb.%s%s]"%(name,name,''.join(', f'+c for c in letters)))
    if not ra:
        out.append("  refine ⟨fun _ h => (nomatch h), fun _ => ?_⟩")
        out.append("  row_ok e")
    else:
        fn='raises_unless' if 'none else' in ra else 'raises_if'
        out.append("  refine %s e ?_ fun hc e => ?_"%fn)
        if name=='pushW':
            out[-1]="  exact ⟨fun _ h => by cases h; exact e, fun h => nomatch h⟩"
            return '\n'.join(out+[''])
        if name=='ldmW':
            out[-1]="  refine raises_if_unless e ?_ ?_ fun hc e => ?_"
            out.append("  · simp")
            out.append("  · intro hc; rw [Bool.eq_iff_iff]; simp [hc]; grind")
        else:
            out.append("  · first | rfl | done | (rw [Bool.eq_iff_iff]; simp [spOrPc, plainReg, regs_zero_m, regs_zero_p, regs_zero_low]; try grind)")
        out.append("  · row_ok e")
    out.append("")
    return '\n'.join(out)
if __name__=='__main__':
    sel=sys.argv[1:]
    print(HEAD)
    for c in cases:
        if not sel or c[0] in sel: print(gen(c))
    print("end Rows\nend Verif")
